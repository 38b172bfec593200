import Verif.Model.Aero
import Verif.Lemmas.Lattice
import Mathlib.Algebra.BigOperators.Fin
import Mathlib.Algebra.BigOperators.Group.Finset.Basic

/-!
# Helper lemmas on the solver kernels
-/

set_option linter.unnecessarySeqFocus false

namespace Verif

open V3

instance {K : Type*} [AddCommGroup K] : AddCommGroup (V3 K) where
  add_assoc u v w := by ext <;> simp [add_assoc]
  zero_add u := by ext <;> simp
  add_zero u := by ext <;> simp
  neg_add_cancel u := by ext <;> simp
  add_comm u v := by ext <;> simp [add_comm]
  sub_eq_add_neg u v := by ext <;> simp [sub_eq_add_neg]
  nsmul := nsmulRec
  zsmul := zsmulRec

namespace V3

variable {K : Type*} {ι : Type*}

theorem sum_x [AddCommGroup K] (s : Finset ι) (f : ι → V3 K) :
    (∑ i ∈ s, f i).x = ∑ i ∈ s, (f i).x := by
  classical
  induction s using Finset.induction_on with
  | empty => simp
  | insert a s ha ih => rw [Finset.sum_insert ha, Finset.sum_insert ha, add_x, ih]

theorem sum_y [AddCommGroup K] (s : Finset ι) (f : ι → V3 K) :
    (∑ i ∈ s, f i).y = ∑ i ∈ s, (f i).y := by
  classical
  induction s using Finset.induction_on with
  | empty => simp
  | insert a s ha ih => rw [Finset.sum_insert ha, Finset.sum_insert ha, add_y, ih]

theorem sum_z [AddCommGroup K] (s : Finset ι) (f : ι → V3 K) :
    (∑ i ∈ s, f i).z = ∑ i ∈ s, (f i).z := by
  classical
  induction s using Finset.induction_on with
  | empty => simp
  | insert a s ha ih => rw [Finset.sum_insert ha, Finset.sum_insert ha, add_z, ih]

theorem dot_sum (s : Finset ι) (f : ι → V3 ℝ) (u : V3 ℝ) :
    (∑ i ∈ s, f i).dot u = ∑ i ∈ s, (f i).dot u := by
  unfold V3.dot
  rw [sum_x, sum_y, sum_z, Finset.sum_mul, Finset.sum_mul, Finset.sum_mul,
    ← Finset.sum_add_distrib, ← Finset.sum_add_distrib]

theorem smul_sum' (s : Finset ι) (f : ι → V3 ℝ) (k : ℝ) :
    k • (∑ i ∈ s, f i) = ∑ i ∈ s, k • f i := by
  ext
  · rw [smul_x, sum_x, sum_x, Finset.mul_sum]; rfl
  · rw [smul_y, sum_y, sum_y, Finset.mul_sum]; rfl
  · rw [smul_z, sum_z, sum_z, Finset.mul_sum]; rfl

theorem cross_sum (s : Finset ι) (f : ι → V3 ℝ) (u : V3 ℝ) :
    u.cross (∑ i ∈ s, f i) = ∑ i ∈ s, u.cross (f i) := by
  ext
  · rw [cross_x, sum_x, sum_y, sum_z, Finset.mul_sum, Finset.mul_sum, ← Finset.sum_sub_distrib]
    rfl
  · rw [cross_y, sum_x, sum_y, sum_z, Finset.mul_sum, Finset.mul_sum, ← Finset.sum_sub_distrib]
    rfl
  · rw [cross_z, sum_x, sum_y, sum_z, Finset.mul_sum, Finset.mul_sum, ← Finset.sum_sub_distrib]
    rfl

/-- Accumulation in a loop is a sum. -/
theorem foldl_sum {M : Type*} [AddCommGroup M] {n : ℕ} (f : Fin n → M) :
    (List.finRange n).foldl (fun acc i => acc + f i) 0 = ∑ i, f i := by
  have h : ∀ (l : List (Fin n)) (a : M),
      l.foldl (fun acc i => acc + f i) a = a + (l.map f).sum := by
    intro l
    induction l with
    | nil => simp
    | cons x l ih => intro a; rw [List.foldl_cons, ih, List.map_cons, List.sum_cons, add_assoc]
  rw [h, zero_add, ← List.ofFn_eq_map, Fin.sum_ofFn]

theorem norm_nonneg (u : V3 ℝ) : 0 ≤ u.norm := Real.sqrt_nonneg _

theorem norm_sq (u : V3 ℝ) : u.norm ^ 2 = u.dot u := by
  unfold V3.norm V3.dot
  exact Real.sq_sqrt (add_nonneg (add_nonneg (mul_self_nonneg _) (mul_self_nonneg _))
      (mul_self_nonneg _))

theorem norm_eq_zero {u : V3 ℝ} : u.norm = 0 ↔ u = 0 := by
  constructor
  · intro h
    by_contra hc
    exact (norm_pos hc).ne' h
  · rintro rfl
    simp [V3.norm]

/-- Lagrange's identity. -/
theorem cross_norm_sq (u v : V3 ℝ) :
    (u.cross v).dot (u.cross v) = u.dot u * v.dot v - (u.dot v) ^ 2 := by
  vsimp; ring

/-- Cauchy-Schwarz. -/
theorem abs_dot_le (u v : V3 ℝ) : |u.dot v| ≤ u.norm * v.norm := by
  apply abs_le_of_sq_le_sq
  · rw [mul_pow, norm_sq, norm_sq]
    have := cross_norm_sq u v
    have h0 : 0 ≤ (u.cross v).dot (u.cross v) := by
      unfold V3.dot
      exact add_nonneg (add_nonneg (mul_self_nonneg _) (mul_self_nonneg _)) (mul_self_nonneg _)
    linarith
  · exact mul_nonneg (norm_nonneg _) (norm_nonneg _)

theorem norm_neg (u : V3 ℝ) : (-u).norm = u.norm := by
  unfold V3.norm
  congr 1
  vsimp
  ring

end V3

theorem kernelDen_pos {eps : ℝ} (h : 0 < eps) {r1 r2 : V3 ℝ} (h1 : r1 ≠ 0) (h2 : r2 ≠ 0) :
    0 < kernelDen eps r1 r2 := by
  have := neg_le_of_abs_le (abs_dot_le r1 r2)
  have p := mul_pos (norm_pos h1) (norm_pos h2)
  have := mul_pos p h
  unfold kernelDen
  linarith

/-- For positive `eps` the kernel is defined everywhere but at the ends of the filament. -/
theorem kernelOk_iff {eps : ℝ} (h : 0 < eps) (x a b : V3 ℝ) :
    KernelOk eps x a b ↔ x ≠ a ∧ x ≠ b := by
  unfold KernelOk
  constructor
  · rintro ⟨h1, h2, -⟩
    exact ⟨fun e => h1 (by rw [e, sub_self]; exact V3.norm_eq_zero.2 rfl),
      fun e => h2 (by rw [e, sub_self]; exact V3.norm_eq_zero.2 rfl)⟩
  · rintro ⟨h1, h2⟩
    have h1' := sub_ne_zero.2 h1
    have h2' := sub_ne_zero.2 h2
    exact ⟨(norm_pos h1').ne', (norm_pos h2').ne', (kernelDen_pos h h1' h2').ne'⟩

theorem kernel_swap (eps : ℝ) (x a b : V3 ℝ) : kernel eps x b a = -kernel eps x a b := by
  unfold kernel kernelDen
  have e : (x - b).dot (x - a) + (x - b).norm * (x - a).norm * (1 + eps) =
      (x - a).dot (x - b) + (x - a).norm * (x - b).norm * (1 + eps) := by
    rw [mul_comm (x - b).norm]
    congr 1
    unfold V3.dot
    ring
  simp only [e]
  generalize (x - a).dot (x - b) + (x - a).norm * (x - b).norm * (1 + eps) = d
  ext <;> vsimp <;> ring

theorem kernel_translate (eps : ℝ) (x a b t : V3 ℝ) :
    kernel eps (x + t) (a + t) (b + t) = kernel eps x a b := by
  unfold kernel
  rw [add_sub_add_right_eq_sub, add_sub_add_right_eq_sub]

theorem KernelOk_translate (eps : ℝ) (x a b t : V3 ℝ) :
    KernelOk eps (x + t) (a + t) (b + t) ↔ KernelOk eps x a b := by
  unfold KernelOk
  rw [add_sub_add_right_eq_sub, add_sub_add_right_eq_sub]

/-- Mirroring at the x-z plane. -/
def flipY (u : V3 ℝ) : V3 ℝ := ⟨u.x, -u.y, u.z⟩

@[simp] theorem flipY_x (u : V3 ℝ) : (flipY u).x = u.x := rfl
@[simp] theorem flipY_y (u : V3 ℝ) : (flipY u).y = -u.y := rfl
@[simp] theorem flipY_z (u : V3 ℝ) : (flipY u).z = u.z := rfl
theorem flipY_flipY (u : V3 ℝ) : flipY (flipY u) = u := by ext <;> simp
theorem flipY_sub (u v : V3 ℝ) : flipY u - flipY v = flipY (u - v) := by
  ext <;> simp <;> ring
theorem flipY_add (u v : V3 ℝ) : flipY u + flipY v = flipY (u + v) := by
  ext <;> simp <;> ring
theorem flipY_smul (k : ℝ) (v : V3 ℝ) : k • flipY v = flipY (k • v) := by
  ext <;> simp
theorem flipY_neg (v : V3 ℝ) : -flipY v = flipY (-v) := by
  ext <;> simp
theorem flipY_dot (u v : V3 ℝ) : (flipY u).dot (flipY v) = u.dot v := by
  unfold V3.dot; simp
theorem flipY_norm (u : V3 ℝ) : (flipY u).norm = u.norm := by
  unfold V3.norm; simp
theorem flipY_cross (u v : V3 ℝ) : (flipY u).cross (flipY v) = -flipY (u.cross v) := by
  ext <;> simp <;> ring
theorem flipY_zero : flipY 0 = 0 := by ext <;> simp
theorem flipY_sum {ι : Type*} (s : Finset ι) (f : ι → V3 ℝ) :
    flipY (∑ i ∈ s, f i) = ∑ i ∈ s, flipY (f i) := by
  ext
  · rw [flipY_x, sum_x, sum_x]; rfl
  · rw [flipY_y, sum_y, sum_y, ← Finset.sum_neg_distrib]; rfl
  · rw [flipY_z, sum_z, sum_z]; rfl

/-- A mirrored vortex filament induces the mirrored velocity with opposite sign. -/
theorem kernel_flip (eps : ℝ) (x a b : V3 ℝ) :
    kernel eps (flipY x) (flipY a) (flipY b) = -flipY (kernel eps x a b) := by
  unfold kernel kernelDen
  simp only [flipY_sub, flipY_dot, flipY_norm, flipY_cross]
  generalize (1 / (4 * Real.pi) * (1 / ((x - a).dot (x - b) +
    (x - a).norm * (x - b).norm * (1 + eps))) * (1 / (x - a).norm + 1 / (x - b).norm)) = k
  ext <;> simp <;> ring

theorem KernelOk_flip (eps : ℝ) (x a b : V3 ℝ) :
    KernelOk eps (flipY x) (flipY a) (flipY b) ↔ KernelOk eps x a b := by
  unfold KernelOk kernelDen
  simp only [flipY_sub, flipY_dot, flipY_norm]

theorem KernelOk_swap (eps : ℝ) (x a b : V3 ℝ) :
    KernelOk eps x b a ↔ KernelOk eps x a b := by
  unfold KernelOk kernelDen
  have e : (x - b).dot (x - a) + (x - b).norm * (x - a).norm * (1 + eps) =
      (x - a).dot (x - b) + (x - a).norm * (x - b).norm * (1 + eps) := by
    rw [mul_comm (x - b).norm]
    congr 1
    unfold V3.dot
    ring
  rw [e]
  tauto

theorem horseshoe_eq (eps : ℝ) (x : V3 ℝ) (g : Panel) :
    horseshoe eps x g =
      kernel eps x g.v1 g.v2 + kernel eps x g.v2 g.v3 + kernel eps x g.v3 g.v4 := by
  unfold horseshoe
  rw [zero_add]

section
variable {n : ℕ}

theorem inwash_eq (eps : ℝ) (P : Fin n → Panel) (gamma : Fin n → ℝ) (x : V3 ℝ) :
    inwash eps P gamma x = ∑ j, gamma j • horseshoe eps x (P j) := foldl_sum _

theorem vlmDownwash_some {eps : ℝ} {P : Fin n → Panel} {A : Matrix (Fin n) (Fin n) ℝ}
    (h : vlmDownwash eps P = some A) :
    (∀ i j, HorseshoeOk eps (P i).col (P j)) ∧
    ∀ i j, A i j = (horseshoe eps (P i).col (P j)).dot (P i).n := by
  unfold vlmDownwash at h
  split_ifs at h with hc
  cases h
  exact ⟨hc, fun _ _ => rfl⟩

theorem panelForce_eq (eps : ℝ) (s : FlowState) (c : Refs) (P : Fin n → Panel)
    (gamma : Fin n → ℝ) (i : Fin n) :
    panelForce eps s c P gamma i =
      (s.rho * gamma i) • (panelVel eps s c P gamma i).cross ((P i).v3 - (P i).v2) := by
  unfold panelForce
  ext <;> simp only [smul_x, smul_y, smul_z] <;> ring

/-- The results with loops written as sums. -/
noncomputable def sumResults (eps : ℝ) (s : FlowState) (c : Refs) (P : Fin n → Panel)
    (gamma : Fin n → ℝ) : Results n :=
  { iw := fun i => inwash eps P gamma (P i).mid
    iwMag := fun i => (inwash eps P gamma (P i).mid).norm
    f := panelForce eps s c P gamma
    fMag := fun i => (panelForce eps s c P gamma i).norm
    cp := panelCp eps s c P gamma
    ftot := ∑ i, panelForce eps s c P gamma i
    mtot := ∑ i, panelMoment eps s c P gamma i
    wind := bodyToWind s (∑ i, panelForce eps s c P gamma i)
    coeffs := vlmCoeffs s c (∑ i, panelForce eps s c P gamma i)
      (∑ i, panelMoment eps s c P gamma i) }

theorem vlmResults_mk {eps : ℝ} {P : Fin n → Panel}
    (h : ∀ i j, HorseshoeOk eps (P i).mid (P j)) (s : FlowState) (c : Refs)
    (gamma : Fin n → ℝ) :
    vlmResults eps s c P gamma = some (sumResults eps s c P gamma) := by
  unfold vlmResults sumResults
  rw [if_pos h]
  simp only [foldl_sum]

theorem vlmResults_some {eps : ℝ} {s : FlowState} {c : Refs} {P : Fin n → Panel}
    {gamma : Fin n → ℝ} {R : Results n} (h : vlmResults eps s c P gamma = some R) :
    (∀ i j, HorseshoeOk eps (P i).mid (P j)) ∧ R = sumResults eps s c P gamma := by
  have h' := h
  unfold vlmResults at h
  split_ifs at h with hc
  rw [vlmResults_mk hc] at h'
  exact ⟨hc, (Option.some.inj h').symm⟩

end

end Verif
