import Verif.Lemmas.Aero
import Mathlib.LinearAlgebra.Matrix.Determinant.Basic

/-!
# Panels whose vortex runs the other way

Helper lemmas: turning the vortices and normals of some panels changes the signs of their
circulations, and nothing else.
-/

namespace Verif

open V3

/-- The same panel with the inner and the outer side exchanged: the vortex runs the other way and the
normal points to the other side. -/
def Panel.turned (g : Panel) : Panel := ⟨g.v4, g.v3, g.v2, g.v1, g.col, g.mid, -g.n, g.area⟩

theorem Panel.turned_turned (g : Panel) : g.turned.turned = g := by
  unfold Panel.turned
  ext1
  all_goals first | rfl | (ext <;> simp)

/-- A panel, turned or not. -/
def Panel.turn (b : Bool) (g : Panel) : Panel := if b then g.turned else g

/-- The sign of a turned panel. -/
def turnSign (b : Bool) : ℝ := if b then -1 else 1

theorem turnSign_sq (b : Bool) : turnSign b * turnSign b = 1 := by cases b <;> simp [turnSign]

theorem turnSign_ne (b : Bool) : turnSign b ≠ 0 := by cases b <;> simp [turnSign]

@[simp] theorem Panel.turn_col (b : Bool) (g : Panel) : (g.turn b).col = g.col := by cases b <;> rfl
@[simp] theorem Panel.turn_mid (b : Bool) (g : Panel) : (g.turn b).mid = g.mid := by cases b <;> rfl
@[simp] theorem Panel.turn_area (b : Bool) (g : Panel) : (g.turn b).area = g.area := by
  cases b <;> rfl

theorem Panel.turn_n (b : Bool) (g : Panel) : (g.turn b).n = turnSign b • g.n := by
  cases b
  · ext <;> simp [Panel.turn, turnSign]
  · ext <;> simp [Panel.turn, Panel.turned, turnSign]

theorem Panel.turn_bound (b : Bool) (g : Panel) :
    (g.turn b).v3 - (g.turn b).v2 = turnSign b • (g.v3 - g.v2) := by
  cases b
  · ext <;> simp [Panel.turn, turnSign]
  · ext <;> simp [Panel.turn, Panel.turned, turnSign]

theorem kernelDen_swap (eps : ℝ) (r1 r2 : V3 ℝ) : kernelDen eps r2 r1 = kernelDen eps r1 r2 := by
  unfold kernelDen
  vsimp
  ring

theorem KernelOk.swap {eps : ℝ} {x a b : V3 ℝ} (h : KernelOk eps x a b) : KernelOk eps x b a := by
  obtain ⟨h1, h2, h3⟩ := h
  exact ⟨h2, h1, by rwa [kernelDen_swap]⟩

theorem HorseshoeOk.turn {eps : ℝ} {x : V3 ℝ} {g : Panel} (h : HorseshoeOk eps x g) (b : Bool) :
    HorseshoeOk eps x (g.turn b) := by
  cases b
  · exact h
  · obtain ⟨h1, h2, h3⟩ := h
    exact ⟨h3.swap, h2.swap, h1.swap⟩

theorem horseshoe_turn (eps : ℝ) (x : V3 ℝ) (g : Panel) (b : Bool) :
    horseshoe eps x (g.turn b) = turnSign b • horseshoe eps x g := by
  cases b
  · ext <;> simp [Panel.turn, turnSign]
  · simp only [Panel.turn, if_true, Panel.turned, turnSign, horseshoe]
    rw [kernel_swap eps x g.v3 g.v4, kernel_swap eps x g.v2 g.v3, kernel_swap eps x g.v1 g.v2]
    ext <;> vsimp <;> ring

section
variable {n : ℕ}

theorem downwash_turn (σ : Fin n → Bool) {eps : ℝ} {P : Fin n → Panel}
    {A : Matrix (Fin n) (Fin n) ℝ} (h : vlmDownwash eps P = some A) :
    vlmDownwash eps (fun k => (P k).turn (σ k)) =
      some fun i j => turnSign (σ i) * turnSign (σ j) * A i j := by
  obtain ⟨h1, h2⟩ := vlmDownwash_some h
  unfold vlmDownwash
  rw [if_pos fun i j => by rw [Panel.turn_col]; exact (h1 i j).turn _]
  congr 1
  funext i j
  rw [h2, Panel.turn_col, Panel.turn_n, horseshoe_turn]
  vsimp
  ring

theorem boundary_turn (σ : Fin n → Bool) (s : FlowState) (c : Refs) (P : Fin n → Panel) (i : Fin n) :
    vlmBoundary s c (fun k => (P k).turn (σ k)) i = turnSign (σ i) * vlmBoundary s c P i := by
  unfold vlmBoundary
  rw [Panel.turn_col, Panel.turn_n]
  vsimp
  ring

theorem det_turn (σ : Fin n → Bool) (A : Matrix (Fin n) (Fin n) ℝ) :
    Matrix.det (fun i j => turnSign (σ i) * turnSign (σ j) * A i j : Matrix (Fin n) (Fin n) ℝ) =
      A.det := by
  have e : (fun i j => turnSign (σ i) * turnSign (σ j) * A i j : Matrix (Fin n) (Fin n) ℝ) =
      Matrix.diagonal (fun i => turnSign (σ i)) * A * Matrix.diagonal fun i => turnSign (σ i) := by
    ext i j
    rw [Matrix.mul_diagonal, Matrix.diagonal_mul]
    ring
  rw [e, Matrix.det_mul, Matrix.det_mul, Matrix.det_diagonal]
  have : (∏ i, turnSign (σ i)) * ∏ i, turnSign (σ i) = 1 := by
    rw [← Finset.prod_mul_distrib]
    exact Finset.prod_eq_one fun i _ => turnSign_sq _
  linear_combination A.det * this

theorem solves_turn (σ : Fin n → Bool) {A : Matrix (Fin n) (Fin n) ℝ} {b g : Fin n → ℝ}
    (h : Solves A b g) : Solves (fun i j => turnSign (σ i) * turnSign (σ j) * A i j)
      (fun k => turnSign (σ k) * b k) (fun k => turnSign (σ k) * g k) := by
  unfold Solves at h ⊢
  funext i
  rw [← h]
  unfold Matrix.mulVec dotProduct
  rw [Finset.mul_sum]
  refine Finset.sum_congr rfl fun j _ => ?_
  linear_combination turnSign (σ i) * A i j * g j * turnSign_sq (σ j)

theorem results_turn (σ : Fin n → Bool) {eps : ℝ} {s : FlowState} {c : Refs}
    {P : Fin n → Panel} {g : Fin n → ℝ} {R : Results n} (h : vlmResults eps s c P g = some R) :
    ∃ R', vlmResults eps s c (fun k => (P k).turn (σ k)) (fun k => turnSign (σ k) * g k) = some R' ∧
      R'.ftot = R.ftot ∧ R'.mtot = R.mtot ∧ R'.wind = R.wind ∧ R'.coeffs = R.coeffs ∧
      ∀ k, R'.iw k = R.iw k ∧ R'.iwMag k = R.iwMag k ∧ R'.f k = R.f k ∧ R'.fMag k = R.fMag k ∧
        R'.cp k = (R.cp k).map (turnSign (σ k) * ·) := by
  obtain ⟨hok, rfl⟩ := vlmResults_some h
  have hi : ∀ x, inwash eps (fun k => (P k).turn (σ k)) (fun k => turnSign (σ k) * g k) x =
      inwash eps P g x := by
    intro x
    rw [inwash_eq, inwash_eq]
    refine Finset.sum_congr rfl fun j _ => ?_
    rw [horseshoe_turn]
    have := turnSign_sq (σ j)
    ext <;> vsimp
    · linear_combination (g j * (horseshoe eps x (P j)).x) * this
    · linear_combination (g j * (horseshoe eps x (P j)).y) * this
    · linear_combination (g j * (horseshoe eps x (P j)).z) * this
  have hf : ∀ i, panelForce eps s c (fun k => (P k).turn (σ k)) (fun k => turnSign (σ k) * g k) i =
      panelForce eps s c P g i := by
    intro i
    rw [panelForce_eq, panelForce_eq]
    unfold panelVel
    rw [hi, Panel.turn_mid, Panel.turn_bound]
    have := turnSign_sq (σ i)
    set v := inwash eps P g (P i).mid - (velWind s + velRot s ((P i).mid - c.cg))
    set w := (P i).v3 - (P i).v2
    ext <;> vsimp
    · linear_combination (s.rho * g i * (v.y * w.z - v.z * w.y)) * this
    · linear_combination (s.rho * g i * (v.z * w.x - v.x * w.z)) * this
    · linear_combination (s.rho * g i * (v.x * w.y - v.y * w.x)) * this
  have hm : ∀ i, panelMoment eps s c (fun k => (P k).turn (σ k)) (fun k => turnSign (σ k) * g k) i =
      panelMoment eps s c P g i := by
    intro i
    unfold panelMoment
    rw [hf, Panel.turn_mid]
  refine ⟨_, vlmResults_mk (fun i j => by rw [Panel.turn_mid]; exact (hok i j).turn _) s c _,
    ?_, ?_, ?_, ?_, ?_⟩
  · simp only [sumResults, hf]
  · simp only [sumResults, hm]
  · simp only [sumResults, hf]
  · simp only [sumResults, hf, hm]
  · intro k
    refine ⟨?_, ?_, hf k, ?_, ?_⟩
    · simp only [sumResults, hi, Panel.turn_mid]
    · simp only [sumResults, hi, Panel.turn_mid]
    · simp only [sumResults, hf]
    · simp only [sumResults]
      unfold panelCp cdiv
      rw [hf, Panel.turn_n, Panel.turn_area]
      split
      · rfl
      · rw [Option.map_some]
        congr 1
        vsimp
        ring

end

end Verif
