import Verif.Lemmas.Aero
import Verif.Props.Lattice
import Mathlib.LinearAlgebra.Matrix.NonsingularInverse
import Mathlib.Analysis.SpecialFunctions.Sqrt
import Mathlib.Analysis.Calculus.Deriv.Mul
import Mathlib.Analysis.Calculus.Deriv.Pow
import Mathlib.Analysis.Calculus.Deriv.Inv
import Mathlib.MeasureTheory.Integral.IntervalIntegral.FundThmCalculus

/-!
# Properties C25–C34: solver kernels
-/

set_option linter.unnecessarySeqFocus false

namespace Verif

open V3

/-! ## Specification -/

/-- Free-stream velocity: where the air goes, seen from the aircraft (angles in degree). -/
noncomputable def freestream (s : FlowState) : V3 ℝ :=
  s.airspeed • freestreamDir (deg2rad s.alpha) (deg2rad s.beta)

/-- Angular velocity of the aircraft. -/
def FlowState.omega (s : FlowState) : V3 ℝ := ⟨s.p, s.q, s.r⟩

/-- Velocity of the air relative to the aircraft at the point `x`: free stream, apparent wind due
to the rotation about the centre of gravity, and the flow induced by all horseshoe vortices. -/
noncomputable def flowAt {n : ℕ} (eps : ℝ) (s : FlowState) (c : Refs) (P : Fin n → Panel)
    (gamma : Fin n → ℝ) (x : V3 ℝ) : V3 ℝ :=
  freestream s - s.omega.cross (x - c.cg) + ∑ j, gamma j • horseshoe eps x (P j)

theorem velWind_eq (s : FlowState) : velWind s = -freestream s := by
  unfold velWind freestream
  ext <;> simp

theorem velRot_eq (s : FlowState) (arm : V3 ℝ) : velRot s arm = s.omega.cross arm := rfl

section
variable {n : ℕ}

theorem panelVel_eq (eps : ℝ) (s : FlowState) (c : Refs) (P : Fin n → Panel)
    (gamma : Fin n → ℝ) (i : Fin n) :
    panelVel eps s c P gamma i = flowAt eps s c P gamma (P i).mid := by
  unfold panelVel flowAt
  rw [inwash_eq, velWind_eq, velRot_eq]
  ext <;> vsimp <;> ring

/-! ## C25 -/

/-- **C25**: whenever the matrix is computed (no division by zero), a vector of circulations solves
the linear system exactly if the flow is tangential to the panel at every collocation point. -/
theorem C25_flow_tangency (eps : ℝ) (s : FlowState) (c : Refs) (P : Fin n → Panel)
    (A : Matrix (Fin n) (Fin n) ℝ) (hA : vlmDownwash eps P = some A) (gamma : Fin n → ℝ) :
    Solves A (vlmBoundary s c P) gamma ↔
      ∀ i, (flowAt eps s c P gamma (P i).col).dot (P i).n = 0 := by
  obtain ⟨-, hA⟩ := vlmDownwash_some hA
  unfold Solves
  rw [funext_iff]
  refine forall_congr' fun i => ?_
  have e1 : A.mulVec gamma i = (∑ j, gamma j • horseshoe eps (P i).col (P j)).dot (P i).n := by
    rw [dot_sum]
    unfold Matrix.mulVec dotProduct
    refine Finset.sum_congr rfl fun j _ => ?_
    have := hA i j
    generalize horseshoe eps (P i).col (P j) = w at *
    simp only [this]
    vsimp
    ring
  have e2 : vlmBoundary s c P i =
      -(freestream s - s.omega.cross ((P i).col - c.cg)).dot (P i).n := by
    unfold vlmBoundary
    rw [velWind_eq, velRot_eq]
    vsimp
    ring
  have e3 : (flowAt eps s c P gamma (P i).col).dot (P i).n =
      (freestream s - s.omega.cross ((P i).col - c.cg)).dot (P i).n +
      (∑ j, gamma j • horseshoe eps (P i).col (P j)).dot (P i).n := by
    unfold flowAt
    generalize freestream s - s.omega.cross ((P i).col - c.cg) = u
    generalize (∑ j, gamma j • horseshoe eps (P i).col (P j)) = w
    vsimp
    ring
  rw [e1, e2, e3]
  constructor <;> intro h <;> linarith

/-! ## C26 -/

/-- **C26**: for `0 < eps` the denominator is positive at every point other than the ends of the
filament. -/
theorem C26_denominator_pos (eps : ℝ) (h : 0 < eps) (x a b : V3 ℝ) (ha : x ≠ a) (hb : x ≠ b) :
    0 < kernelDen eps (x - a) (x - b) ∧ 0 < (x - a).norm ∧ 0 < (x - b).norm :=
  ⟨kernelDen_pos h (sub_ne_zero.2 ha) (sub_ne_zero.2 hb), norm_pos (sub_ne_zero.2 ha),
    norm_pos (sub_ne_zero.2 hb)⟩

/-- **C26** for a lattice: the matrix is computed if and only if no collocation point is an end of
a vortex filament. -/
theorem C26_matrix_defined (eps : ℝ) (h : 0 < eps) (P : Fin n → Panel) :
    (∃ A, vlmDownwash eps P = some A) ↔
      ∀ i j, ∀ v ∈ [(P j).v1, (P j).v2, (P j).v3, (P j).v4], (P i).col ≠ v := by
  have key : ∀ i j, HorseshoeOk eps (P i).col (P j) ↔
      ∀ v ∈ [(P j).v1, (P j).v2, (P j).v3, (P j).v4], (P i).col ≠ v := by
    intro i j
    unfold HorseshoeOk
    simp only [kernelOk_iff h, List.mem_cons, List.not_mem_nil, or_false, forall_eq_or_imp,
      forall_eq]
    tauto
  constructor
  · rintro ⟨A, hA⟩ i j
    exact (key i j).1 ((vlmDownwash_some hA).1 i j)
  · intro hall
    unfold vlmDownwash
    rw [if_pos fun i j => (key i j).2 (hall i j)]
    exact ⟨_, rfl⟩

/-- **C26** for the loads, evaluated at the midpoints of the bound vortices. -/
theorem C26_results_defined (eps : ℝ) (h : 0 < eps) (s : FlowState) (c : Refs) (P : Fin n → Panel)
    (gamma : Fin n → ℝ) :
    (∃ R, vlmResults eps s c P gamma = some R) ↔
      ∀ i j, ∀ v ∈ [(P j).v1, (P j).v2, (P j).v3, (P j).v4], (P i).mid ≠ v := by
  have key : ∀ i j, HorseshoeOk eps (P i).mid (P j) ↔
      ∀ v ∈ [(P j).v1, (P j).v2, (P j).v3, (P j).v4], (P i).mid ≠ v := by
    intro i j
    unfold HorseshoeOk
    simp only [kernelOk_iff h, List.mem_cons, List.not_mem_nil, or_false, forall_eq_or_imp,
      forall_eq]
    tauto
  constructor
  · rintro ⟨A, hA⟩ i j
    exact (key i j).1 ((vlmResults_some hA).1 i j)
  · intro hall
    unfold vlmResults
    rw [if_pos fun i j => (key i j).2 (hall i j)]
    exact ⟨_, rfl⟩

end

/-! ## C27 -/

/-- Textbook velocity of a straight filament of unit strength from `a` to `b`. -/
noncomputable def biotSavart (x a b : V3 ℝ) : V3 ℝ :=
  (1 / (4 * Real.pi) * ((b - a).dot ((1 / (x - a).norm) • (x - a) - (1 / (x - b).norm) • (x - b)) /
    ((x - a).cross (x - b)).dot ((x - a).cross (x - b)))) • (x - a).cross (x - b)

/-- **C27**: for `eps = 0` the kernel is the textbook formula at all points off the line through
the filament. -/
theorem C27_textbook (x a b : V3 ℝ) (h : (x - a).cross (x - b) ≠ 0) :
    kernel 0 x a b = biotSavart x a b ∧ KernelOk 0 x a b := by
  have e0 : b - a = (x - a) - (x - b) := by ext <;> vsimp <;> ring
  unfold kernel biotSavart KernelOk kernelDen
  rw [e0]
  generalize x - a = r1 at *
  generalize x - b = r2 at *
  have h1 : r1 ≠ 0 := by rintro rfl; apply h; ext <;> simp
  have h2 : r2 ≠ 0 := by rintro rfl; apply h; ext <;> simp
  have p1 := norm_pos h1
  have p2 := norm_pos h2
  have n1 := norm_sq r1
  have n2 := norm_sq r2
  have hc := dot_self_pos h
  have hl := cross_norm_sq r1 r2
  rw [hl] at hc ⊢
  rw [← n1, ← n2] at hc ⊢
  have hd : (r1 - r2).dot ((1 / r1.norm) • r1 - (1 / r2.norm) • r2) =
      1 / r1.norm * r1.norm ^ 2 + 1 / r2.norm * r2.norm ^ 2
      - (1 / r1.norm + 1 / r2.norm) * r1.dot r2 := by
    rw [n1, n2]
    generalize 1 / r1.norm = k1
    generalize 1 / r2.norm = k2
    vsimp
    ring
  rw [hd]
  have f : r1.norm ^ 2 * r2.norm ^ 2 - r1.dot r2 ^ 2 =
    (r1.norm * r2.norm - r1.dot r2) * (r1.norm * r2.norm + r1.dot r2) := by ring
  have hs : r1.dot r2 + r1.norm * r2.norm ≠ 0 := by
    intro hz
    rw [f] at hc
    have : r1.norm * r2.norm + r1.dot r2 = 0 := by linarith
    rw [this] at hc
    simp at hc
  have hs' : r1.norm * r2.norm - r1.dot r2 ≠ 0 := by
    intro hz
    rw [f, hz] at hc
    simp at hc
  refine ⟨?_, p1.ne', p2.ne', by simpa using hs⟩
  simp only
  congr 1
  rw [f, mul_assoc]
  congr 1
  have hs2 : r1.norm * r2.norm + r1.dot r2 ≠ 0 := by rwa [add_comm] at hs
  have q1 := p1.ne'
  have q2 := p2.ne'
  generalize r1.norm = A at *
  generalize r2.norm = B at *
  generalize r1.dot r2 = d at *
  have hs3 : d + A * B * (1 + 0) ≠ 0 := by simpa using hs
  field_simp
  ring

/-- Squared distance of `r1` from the point `t` of a filament with direction `r0`. -/
noncomputable def dsq (r0 r1 : V3 ℝ) (t : ℝ) : ℝ := (r1 - t • r0).dot (r1 - t • r0)

theorem dsq_pos {r0 r1 : V3 ℝ} (h : r0.cross r1 ≠ 0) (t : ℝ) : 0 < dsq r0 r1 t := by
  apply dot_self_pos
  intro hz
  apply h
  have hx := congrArg V3.x hz
  have hy := congrArg V3.y hz
  have hzz := congrArg V3.z hz
  clear hz h
  ext <;> vsimp
  · linear_combination r0.y * hzz - r0.z * hy
  · linear_combination r0.z * hx - r0.x * hzz
  · linear_combination r0.x * hy - r0.y * hx

theorem integral_filament {r0 r1 : V3 ℝ} (h : r0.cross r1 ≠ 0) :
    ∫ t in (0 : ℝ)..1, 1 / √(dsq r0 r1 t) ^ 3 =
      ((r0.dot r0 - r1.dot r0) / √(dsq r0 r1 1) + r1.dot r0 / √(dsq r0 r1 0)) /
        (r0.cross r1).dot (r0.cross r1) := by
  have hw := dot_self_pos h
  have hD : ∀ t, HasDerivAt (dsq r0 r1) (2 * (t * r0.dot r0 - r1.dot r0)) t := by
    intro t
    have e : dsq r0 r1 = fun t => r1.dot r1 - t * (2 * r1.dot r0) + t ^ 2 * r0.dot r0 := by
      funext t
      unfold dsq
      vsimp
      ring
    rw [e]
    have h1 := (hasDerivAt_id t).mul_const (2 * r1.dot r0)
    have h2 := (((hasDerivAt_id t).pow 2).mul_const (r0.dot r0))
    have h3 := ((hasDerivAt_const t (r1.dot r1)).sub h1).add h2
    refine h3.congr_deriv ?_
    simp
    ring
  have hder : ∀ t ∈ Set.uIcc (0 : ℝ) 1, HasDerivAt
      (fun t => (t * r0.dot r0 - r1.dot r0) / √(dsq r0 r1 t) / (r0.cross r1).dot (r0.cross r1))
      (1 / √(dsq r0 r1 t) ^ 3) t := by
    intro t _
    have hp := dsq_pos h t
    have hs := Real.sqrt_pos.2 hp
    have h1 := ((hasDerivAt_id t).mul_const (r0.dot r0)).sub_const (r1.dot r0)
    have h2 := (hD t).sqrt hp.ne'
    have h3 := (h1.div h2 hs.ne').div_const ((r0.cross r1).dot (r0.cross r1))
    refine h3.congr_deriv ?_
    have hsq := Real.sq_sqrt hp.le
    have hl : (r0.cross r1).dot (r0.cross r1) = r0.dot r0 * dsq r0 r1 t -
        (t * r0.dot r0 - r1.dot r0) ^ 2 := by
      unfold dsq
      vsimp
      ring
    rw [← hsq] at hl
    simp only [id, one_mul]
    generalize √(dsq r0 r1 t) = q at *
    generalize (r0.cross r1).dot (r0.cross r1) = w at *
    field_simp
    rw [hl]
    ring
  have hcont : ContinuousOn (fun t => 1 / √(dsq r0 r1 t) ^ 3) (Set.uIcc 0 1) := by
    apply ContinuousOn.div continuousOn_const
    · apply ContinuousOn.pow
      apply ContinuousOn.sqrt
      exact fun t _ => (hD t).continuousAt.continuousWithinAt
    · intro t _
      exact (pow_pos (Real.sqrt_pos.2 (dsq_pos h t)) 3).ne'
  rw [intervalIntegral.integral_eq_sub_of_hasDerivAt hder hcont.intervalIntegrable]
  ring

/-- **C27**: for `eps = 0` the kernel is the Biot-Savart integral
`1/(4π) ∫ dl × r / |r|³` along the filament, for all points off its line (stated for an arbitrary
component, taken by the scalar product with `u`). -/
theorem C27_integral (x a b u : V3 ℝ) (h : (x - a).cross (x - b) ≠ 0) :
    (kernel 0 x a b).dot u = 1 / (4 * Real.pi) *
      ∫ t in (0 : ℝ)..1, ((b - a).cross (x - (a + t • (b - a)))).dot u /
        (x - (a + t • (b - a))).norm ^ 3 := by
  rw [(C27_textbook x a b h).1]
  unfold biotSavart
  have e0 : x - b = (x - a) - (b - a) := by ext <;> vsimp <;> ring
  have e1 : ∀ t : ℝ, x - (a + t • (b - a)) = (x - a) - t • (b - a) := by
    intro t; ext <;> vsimp <;> ring
  simp only [e1]
  rw [e0] at h ⊢
  generalize x - a = r1 at *
  generalize b - a = r0 at *
  have ec : r1.cross (r1 - r0) = r0.cross r1 := by ext <;> vsimp <;> ring
  rw [ec] at h ⊢
  have e2 : ∀ t : ℝ, (r0.cross (r1 - t • r0)).dot u / (r1 - t • r0).norm ^ 3 =
      (r0.cross r1).dot u * (1 / √(dsq r0 r1 t) ^ 3) := by
    intro t
    have : r0.cross (r1 - t • r0) = r0.cross r1 := by ext <;> vsimp <;> ring
    rw [this, mul_one_div]
    rfl
  simp only [e2]
  rw [intervalIntegral.integral_const_mul, integral_filament h]
  have n1 : √(dsq r0 r1 1) = (r1 - r0).norm := by
    unfold dsq V3.norm
    congr 1
    vsimp
    ring
  have n0 : √(dsq r0 r1 0) = r1.norm := by
    unfold dsq V3.norm
    congr 1
    vsimp
    ring
  rw [n1, n0]
  have hd : r0.dot ((1 / r1.norm) • r1 - (1 / (r1 - r0).norm) • (r1 - r0)) =
      (r0.dot r0 - r1.dot r0) / (r1 - r0).norm + r1.dot r0 / r1.norm := by
    generalize (r1 - r0).norm = k2
    generalize r1.norm = k1
    vsimp
    ring
  rw [hd]
  generalize (r0.dot r0 - r1.dot r0) / (r1 - r0).norm + r1.dot r0 / r1.norm = I
  generalize r0.cross r1 = w
  generalize hW : w.dot w = W
  clear hW
  vsimp
  ring

/-- **C27**: for `eps > 0` the kernel is the velocity of the textbook formula times a factor
between zero and one which tends to one with `eps`; the factor is at least `1/(1 + eps)` if the two
radius vectors enclose at most 90 degrees. -/
theorem C27_damped (eps : ℝ) (he : 0 < eps) (x a b : V3 ℝ) (h : (x - a).cross (x - b) ≠ 0) :
    ∃ k : ℝ, kernel eps x a b = k • biotSavart x a b ∧ 0 < k ∧ k < 1 ∧
      1 - k ≤ eps * ((x - a).norm * (x - b).norm / kernelDen 0 (x - a) (x - b)) ∧
      0 < kernelDen 0 (x - a) (x - b) ∧
      (0 ≤ (x - a).dot (x - b) → 1 / (1 + eps) ≤ k) := by
  obtain ⟨h0, -, -, hok⟩ := C27_textbook x a b h
  rw [← h0]
  have h1 : x - a ≠ 0 := by intro hz; apply h; rw [hz]; ext <;> simp
  have h2 : x - b ≠ 0 := by intro hz; apply h; rw [hz]; ext <;> simp
  have hm := mul_pos (norm_pos h1) (norm_pos h2)
  have hcs := neg_le_of_abs_le (abs_dot_le (x - a) (x - b))
  have hd : 0 < kernelDen 0 (x - a) (x - b) := by
    refine lt_of_le_of_ne ?_ hok.symm
    unfold kernelDen
    linarith
  have hde := kernelDen_pos he h1 h2
  have hrel : kernelDen eps (x - a) (x - b) = kernelDen 0 (x - a) (x - b) +
      eps * ((x - a).norm * (x - b).norm) := by unfold kernelDen; ring
  refine ⟨kernelDen 0 (x - a) (x - b) / kernelDen eps (x - a) (x - b), ?_, by positivity, ?_, ?_,
    hd, ?_⟩
  · unfold kernel
    have hne := hde.ne'
    have hne0 := hd.ne'
    simp only
    generalize kernelDen 0 (x - a) (x - b) = d0 at *
    generalize kernelDen eps (x - a) (x - b) = de at *
    generalize (x - a).cross (x - b) = w
    generalize 1 / (x - a).norm + 1 / (x - b).norm = m
    ext <;> vsimp <;> field_simp
  · rw [div_lt_one hde, hrel]
    have := mul_pos he hm
    linarith
  · rw [hrel]
    generalize kernelDen 0 (x - a) (x - b) = d0 at *
    have hpos : 0 < d0 + eps * ((x - a).norm * (x - b).norm) := by rw [← hrel]; exact hde
    generalize (x - a).norm * (x - b).norm = m at *
    have e : 1 - d0 / (d0 + eps * m) = eps * m / (d0 + eps * m) := by field_simp; ring
    rw [e, mul_div_assoc']
    exact div_le_div_of_nonneg_left (by positivity) hd (by nlinarith)
  · intro hdot
    rw [div_le_div_iff₀ (by linarith) hde, hrel]
    have : kernelDen 0 (x - a) (x - b) =
      (x - a).dot (x - b) + (x - a).norm * (x - b).norm := by unfold kernelDen; ring
    rw [this]
    nlinarith [mul_nonneg he.le hdot]

/-! ## C28 -/

/-- **C28**: at points on its line a filament induces nothing; reversing a filament reverses the
velocity. -/
theorem C28_own_line (eps : ℝ) (a b : V3 ℝ) (t : ℝ) :
    kernel eps (a + t • (b - a)) a b = 0 := by
  unfold kernel
  have : (a + t • (b - a) - a).cross (a + t • (b - a) - b) = 0 := by
    ext <;> vsimp <;> ring
  simp only [this]
  ext <;> simp

theorem C28_reversed (eps : ℝ) (x a b : V3 ℝ) : kernel eps x b a = -kernel eps x a b :=
  kernel_swap eps x a b

/-- **C28** for generated panels: the bound leg induces nothing at its own midpoint, so the
velocity induced by a panel on itself is that of its two trailing legs. -/
theorem C28_own_midpoint (eps : ℝ) (k : Coef ℝ) (leg : V3 ℝ) (panS panC : ℤ) (i j : ℕ) :
    let g := (panelPts k leg panS panC i j).toPanel
    kernel eps g.mid g.v2 g.v3 = 0 ∧
    horseshoe eps g.mid g = kernel eps g.mid g.v1 g.v2 + kernel eps g.mid g.v3 g.v4 := by
  intro g
  have hm : g.mid = g.v2 + (1 / 2 : ℝ) • (g.v3 - g.v2) := by
    simp only [g, PanelPts.toPanel, panelPts]
    ext <;> vsimp <;> ring
  have h0 : kernel eps g.mid g.v2 g.v3 = 0 := by rw [hm]; exact C28_own_line _ _ _ _
  refine ⟨h0, ?_⟩
  rw [horseshoe_eq, h0, add_zero]

/-! ## C29, C30, C31 -/

section
variable {n : ℕ}

/-- **C29**: force on each panel: density times circulation times (local velocity x bound vortex);
perpendicular to both; zero without circulation. -/
theorem C29_kutta_joukowski (eps : ℝ) (s : FlowState) (c : Refs) (P : Fin n → Panel)
    (gamma : Fin n → ℝ) (R : Results n) (h : vlmResults eps s c P gamma = some R) (i : Fin n) :
    let L := (P i).v3 - (P i).v2
    let V := flowAt eps s c P gamma (P i).mid
    R.f i = (s.rho * gamma i) • V.cross L ∧ (R.f i).dot L = 0 ∧ (R.f i).dot V = 0 ∧
    R.fMag i = (R.f i).norm ∧ (gamma i = 0 → R.f i = 0) := by
  obtain ⟨-, rfl⟩ := vlmResults_some h
  have e : panelForce eps s c P gamma i = (s.rho * gamma i) •
      (flowAt eps s c P gamma (P i).mid).cross ((P i).v3 - (P i).v2) := by
    rw [panelForce_eq, panelVel_eq]
  simp only [sumResults, e]
  generalize flowAt eps s c P gamma (P i).mid = V
  generalize (P i).v3 - (P i).v2 = L
  refine ⟨trivial, ?_, ?_, trivial, ?_⟩
  · vsimp; ring
  · vsimp; ring
  · intro h0
    rw [h0]
    ext <;> simp

/-- **C30**: totals are the sums over the panels. -/
theorem C30_totals (eps : ℝ) (s : FlowState) (c : Refs) (P : Fin n → Panel)
    (gamma : Fin n → ℝ) (R : Results n) (h : vlmResults eps s c P gamma = some R) :
    R.ftot = ∑ i, R.f i ∧ R.mtot = ∑ i, ((P i).mid - c.rp).cross (R.f i) ∧
    ∀ i, R.iw i = ∑ j, gamma j • horseshoe eps (P i).mid (P j) ∧
      R.iwMag i = (R.iw i).norm := by
  obtain ⟨-, rfl⟩ := vlmResults_some h
  exact ⟨rfl, rfl, fun i => ⟨inwash_eq _ _ _ _, rfl⟩⟩

theorem inwash_perm (σ : Equiv.Perm (Fin n)) (eps : ℝ) (P : Fin n → Panel) (gamma : Fin n → ℝ)
    (x : V3 ℝ) : inwash eps (P ∘ σ) (gamma ∘ σ) x = inwash eps P gamma x := by
  rw [inwash_eq, inwash_eq]
  exact Equiv.sum_comp σ fun j => gamma j • horseshoe eps x (P j)

/-- **C30**: the order of the panels is irrelevant for all results. -/
theorem C30_order_irrelevant (σ : Equiv.Perm (Fin n)) (eps : ℝ) (s : FlowState) (c : Refs)
    (P : Fin n → Panel) (gamma : Fin n → ℝ) (R : Results n)
    (h : vlmResults eps s c P gamma = some R) :
    ∃ R', vlmResults eps s c (P ∘ σ) (gamma ∘ σ) = some R' ∧
      (∀ i, R'.f i = R.f (σ i)) ∧ (∀ i, R'.cp i = R.cp (σ i)) ∧
      R'.ftot = R.ftot ∧ R'.mtot = R.mtot ∧ R'.wind = R.wind ∧ R'.coeffs = R.coeffs := by
  obtain ⟨hok, rfl⟩ := vlmResults_some h
  have hf : ∀ i, panelForce eps s c (P ∘ σ) (gamma ∘ σ) i = panelForce eps s c P gamma (σ i) := by
    intro i
    unfold panelForce panelVel
    rw [inwash_perm]
    rfl
  have hm : ∀ i, panelMoment eps s c (P ∘ σ) (gamma ∘ σ) i =
      panelMoment eps s c P gamma (σ i) := by
    intro i
    unfold panelMoment
    rw [hf]
    rfl
  have hF : ∑ i, panelForce eps s c (P ∘ σ) (gamma ∘ σ) i = ∑ i, panelForce eps s c P gamma i := by
    rw [Finset.sum_congr rfl fun i _ => hf i]
    exact Equiv.sum_comp σ _
  have hM : ∑ i, panelMoment eps s c (P ∘ σ) (gamma ∘ σ) i =
      ∑ i, panelMoment eps s c P gamma i := by
    rw [Finset.sum_congr rfl fun i _ => hm i]
    exact Equiv.sum_comp σ _
  refine ⟨_, vlmResults_mk (P := P ∘ σ) (fun i j => hok (σ i) (σ j)) s c _, hf, ?_, ?_, ?_, ?_, ?_⟩
  · intro i
    show panelCp _ _ _ _ _ _ = panelCp _ _ _ _ _ _
    unfold panelCp
    rw [hf]
    rfl
  all_goals simp only [sumResults, hF, hM]

/-- **C31**: change of the moment reference point. -/
theorem C31_moment_transfer (eps : ℝ) (s : FlowState) (c : Refs) (rp : V3 ℝ) (P : Fin n → Panel)
    (gamma : Fin n → ℝ) (R : Results n) (h : vlmResults eps s c P gamma = some R) :
    ∃ R', vlmResults eps s { c with rp := rp } P gamma = some R' ∧
      R'.mtot = R.mtot + (c.rp - rp).cross R.ftot ∧ R'.ftot = R.ftot ∧ R'.f = R.f ∧
      R'.cp = R.cp ∧ R'.wind = R.wind := by
  obtain ⟨hok, rfl⟩ := vlmResults_some h
  refine ⟨_, vlmResults_mk hok s _ _, ?_, rfl, rfl, rfl, rfl⟩
  · simp only [sumResults]
    rw [cross_sum, ← Finset.sum_add_distrib]
    refine Finset.sum_congr rfl fun i _ => ?_
    have e : panelForce eps s { c with rp := rp } P gamma i = panelForce eps s c P gamma i := rfl
    unfold panelMoment
    rw [e]
    generalize panelForce eps s c P gamma i = f
    ext <;> vsimp <;> ring

end

/-! ## C32, C33 -/

/-- **C32**: the wind-axes components are a proper rotation of the body-axes components (lengths,
angles and orientation are kept), and the first one, the drag, is the component along the free
stream. -/
theorem C32_rotation (s : FlowState) (f g : V3 ℝ) :
    (bodyToWind s f).dot (bodyToWind s g) = f.dot g ∧ (bodyToWind s f).norm = f.norm ∧
    bodyToWind s (f.cross g) = (bodyToWind s f).cross (bodyToWind s g) ∧
    (bodyToWind s f).x = f.dot (freestreamDir (deg2rad s.alpha) (deg2rad s.beta)) := by
  have h1 := Real.sin_sq_add_cos_sq (deg2rad s.alpha)
  have h2 := Real.sin_sq_add_cos_sq (deg2rad s.beta)
  have hd : ∀ f g : V3 ℝ, (bodyToWind s f).dot (bodyToWind s g) = f.dot g := by
    intro f g
    unfold bodyToWind
    simp only
    generalize Real.sin (deg2rad s.alpha) = sa at *
    generalize Real.cos (deg2rad s.alpha) = ca at *
    generalize Real.sin (deg2rad s.beta) = sb at *
    generalize Real.cos (deg2rad s.beta) = cb at *
    vsimp
    linear_combination ((ca * f.x + sa * f.z) * (ca * g.x + sa * g.z) + f.y * g.y) * h2 +
      (f.x * g.x + f.z * g.z) * h1
  refine ⟨hd f g, ?_, ?_, ?_⟩
  · have := hd f f
    unfold V3.norm
    unfold V3.dot at this
    rw [this]
  · unfold bodyToWind
    simp only
    generalize Real.sin (deg2rad s.alpha) = sa at *
    generalize Real.cos (deg2rad s.alpha) = ca at *
    generalize Real.sin (deg2rad s.beta) = sb at *
    generalize Real.cos (deg2rad s.beta) = cb at *
    ext
    · vsimp
      linear_combination (sb * (f.z * g.x - f.x * g.z)) * h1
    · vsimp
      linear_combination -(cb * (f.z * g.x - f.x * g.z)) * h1
    · vsimp
      linear_combination -(ca * (f.x * g.y - f.y * g.x) - sa * (f.y * g.z - f.z * g.y)) * h2
  · unfold bodyToWind freestreamDir
    vsimp
    ring

/-- **C33**: the vector of the Python side is airspeed times the direction used natively, and its
length is the airspeed. -/
theorem C33_same_freestream (s : FlowState) :
    pyFreestream s.airspeed s.alpha s.beta = freestream s ∧
    velWind s = -pyFreestream s.airspeed s.alpha s.beta ∧
    (pyFreestream s.airspeed s.alpha s.beta).norm = |s.airspeed| := by
  have e : pyFreestream s.airspeed s.alpha s.beta = freestream s := rfl
  refine ⟨e, by rw [e, velWind_eq], ?_⟩
  rw [e, freestream, norm_smul]
  have := (C15_trailing_legs (Coef.of sweptSquare) s.alpha s.beta 1 1 0 0).1
  rw [this, mul_one]

/-! ## C34 -/

theorem cdiv_mul {x y z : ℝ} (h : cdiv x y = some z) : z * y = x := by
  unfold cdiv at h
  split_ifs at h with hy
  cases h
  field_simp

theorem cdiv_some {x y : ℝ} (h : y ≠ 0) : cdiv x y = some (x / y) := by
  unfold cdiv
  rw [if_neg h]

/-- All nine coefficients are finite numbers. -/
def Coeffs.Finite (k : Coeffs) : Prop :=
  ∀ o ∈ [k.cx, k.cy, k.cz, k.cL, k.cD, k.cC, k.cl, k.cm, k.cn], o.isSome

/-- Reference quantities a user may define (all positive, see C51). -/
def Refs.NonZero (c : Refs) : Prop := c.area ≠ 0 ∧ c.span ≠ 0 ∧ c.chord ≠ 0

/-- The coefficients `k` reproduce the loads when multiplied with `q` and the reference
quantities. -/
def Coeffs.Reproduce (k : Coeffs) (q : ℝ) (c : Refs) (f m w : V3 ℝ) : Prop :=
  (∀ v, k.cx = some v → v * q * c.area = f.x) ∧ (∀ v, k.cy = some v → v * q * c.area = f.y) ∧
  (∀ v, k.cz = some v → v * q * c.area = f.z) ∧ (∀ v, k.cD = some v → v * q * c.area = w.x) ∧
  (∀ v, k.cC = some v → v * q * c.area = w.y) ∧ (∀ v, k.cL = some v → v * q * c.area = w.z) ∧
  (∀ v, k.cl = some v → v * q * c.area * c.span = m.x) ∧
  (∀ v, k.cm = some v → v * q * c.area * c.chord = m.y) ∧
  (∀ v, k.cn = some v → v * q * c.area * c.span = m.z)

/-- **C34**: the coefficients are always finite; with non-zero dynamic pressure
`rho V² / 2` they reproduce forces (in body and wind axes) and moments. -/
theorem C34_coefficients {n : ℕ} (eps : ℝ) (s : FlowState) (c : Refs) (P : Fin n → Panel)
    (gamma : Fin n → ℝ) (R : Results n) (h : vlmResults eps s c P gamma = some R)
    (hc : c.NonZero) :
    R.coeffs.Finite ∧ (s.rho ≠ 0 → s.airspeed ≠ 0 →
      R.coeffs.Reproduce (s.rho * s.airspeed ^ 2 / 2) c R.ftot R.mtot R.wind) := by
  obtain ⟨-, rfl⟩ := vlmResults_some h
  obtain ⟨h1, h2, h3⟩ := hc
  simp only [sumResults]
  generalize (∑ i, panelForce eps s c P gamma i) = F
  generalize (∑ i, panelMoment eps s c P gamma i) = M
  constructor
  · have hq : (if dynPressure s = 0 then 1 else dynPressure s) ≠ 0 := by split_ifs <;> simp [*]
    unfold vlmCoeffs Coeffs.Finite
    simp only
    generalize (if dynPressure s = 0 then 1 else dynPressure s) = q at *
    simp [cdiv_some, hq, h1, h2, h3]
  · intro hr hv
    have hd : dynPressure s = s.rho * s.airspeed ^ 2 / 2 := by unfold dynPressure; ring
    have hq : dynPressure s ≠ 0 := by rw [hd]; positivity
    rw [← hd]
    unfold vlmCoeffs Coeffs.Reproduce
    simp only [if_neg hq]
    refine ⟨?_, ?_, ?_, ?_, ?_, ?_, ?_, ?_, ?_⟩ <;> intro v hv' <;>
      · have := cdiv_mul hv'
        rw [← this]
        ring

/-- The wind-axes force reported is the rotated total force of C32. -/
theorem C32_wind_force {n : ℕ} (eps : ℝ) (s : FlowState) (c : Refs) (P : Fin n → Panel)
    (gamma : Fin n → ℝ) (R : Results n) (h : vlmResults eps s c P gamma = some R) :
    R.wind.norm = R.ftot.norm ∧
    R.wind.x = R.ftot.dot (freestreamDir (deg2rad s.alpha) (deg2rad s.beta)) := by
  obtain ⟨-, rfl⟩ := vlmResults_some h
  exact ⟨(C32_rotation s _ 0).2.1, (C32_rotation s _ 0).2.2.2⟩

end Verif
