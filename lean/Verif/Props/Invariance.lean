import Verif.Props.Aero
import Mathlib.Logic.Equiv.Option
import Mathlib.Logic.Equiv.Fin.Basic
import Mathlib.LinearAlgebra.Matrix.NonsingularInverse

/-!
# Properties C36–C39: invariance of the results
-/

set_option linter.unnecessarySeqFocus false

namespace Verif

open V3

section
variable {n : ℕ}

/-! ## C36 -/

/-- **C36**: changing the density by a factor leaves the system (so its solutions) unchanged,
multiplies all loads with the factor, and leaves all coefficients unchanged if the airspeed is not
zero. -/
theorem C36_density (eps : ℝ) (s : FlowState) (c : Refs) (P : Fin n → Panel) (k : ℝ)
    (hk : k ≠ 0) :
    vlmBoundary { s with rho := k * s.rho } c P = vlmBoundary s c P ∧
    ∀ gamma R, vlmResults eps s c P gamma = some R →
      ∃ R', vlmResults eps { s with rho := k * s.rho } c P gamma = some R' ∧
        (∀ i, R'.f i = k • R.f i) ∧ R'.ftot = k • R.ftot ∧ R'.mtot = k • R.mtot ∧
        R'.wind = k • R.wind ∧ R'.iw = R.iw ∧
        (s.airspeed ≠ 0 → s.rho ≠ 0 → R'.coeffs = R.coeffs ∧ R'.cp = R.cp) := by
  refine ⟨rfl, ?_⟩
  intro gamma R h
  obtain ⟨hok, rfl⟩ := vlmResults_some h
  have hf : ∀ i, panelForce eps { s with rho := k * s.rho } c P gamma i =
      k • panelForce eps s c P gamma i := by
    intro i
    rw [panelForce_eq, panelForce_eq]
    have : panelVel eps { s with rho := k * s.rho } c P gamma i = panelVel eps s c P gamma i := rfl
    rw [this]
    generalize panelVel eps s c P gamma i = v
    ext <;> vsimp <;> ring
  have hm : ∀ i, panelMoment eps { s with rho := k * s.rho } c P gamma i =
      k • panelMoment eps s c P gamma i := by
    intro i
    unfold panelMoment
    rw [hf]
    generalize panelForce eps s c P gamma i = v
    ext <;> vsimp <;> ring
  have hF : ∑ i, panelForce eps { s with rho := k * s.rho } c P gamma i =
      k • ∑ i, panelForce eps s c P gamma i := by
    rw [smul_sum']
    exact Finset.sum_congr rfl fun i _ => hf i
  have hM : ∑ i, panelMoment eps { s with rho := k * s.rho } c P gamma i =
      k • ∑ i, panelMoment eps s c P gamma i := by
    rw [smul_sum']
    exact Finset.sum_congr rfl fun i _ => hm i
  have hW : ∀ f : V3 ℝ, bodyToWind { s with rho := k * s.rho } (k • f) = k • bodyToWind s f := by
    intro f
    unfold bodyToWind
    ext <;> vsimp <;> ring
  have hq : dynPressure { s with rho := k * s.rho } = k * dynPressure s := by
    unfold dynPressure; ring
  refine ⟨_, vlmResults_mk hok _ c _, hf, hF, hM, ?_, rfl, ?_⟩
  · simp only [sumResults]
    rw [hF, hW]
  · intro hv hr
    have hq0 : dynPressure s ≠ 0 := by
      unfold dynPressure
      positivity
    have hq1 : k * dynPressure s ≠ 0 := mul_ne_zero hk hq0
    have hc : ∀ x y : ℝ, cdiv (k * x) (k * y) = cdiv x y := by
      intro x y
      unfold cdiv
      rw [mul_div_mul_left _ _ hk]
      simp [hk]
    constructor
    · simp only [sumResults]
      rw [hF, hM]
      unfold vlmCoeffs
      simp only [hW, hq, if_neg hq0, if_neg hq1, smul_x, smul_y, smul_z]
      simp only [mul_assoc, hc]
    · funext i
      show panelCp _ _ _ _ _ _ = panelCp _ _ _ _ _ _
      unfold panelCp
      rw [hf, hq, mul_assoc]
      have : (k • panelForce eps s c P gamma i).dot (P i).n =
          k * (panelForce eps s c P gamma i).dot (P i).n := by vsimp; ring
      rw [this, hc]

/-! ## C37 -/

/-- State with airspeed and rates multiplied by `k`. -/
def FlowState.faster (s : FlowState) (k : ℝ) : FlowState :=
  { s with airspeed := k * s.airspeed, p := k * s.p, q := k * s.q, r := k * s.r }

theorem flowAt_faster (eps : ℝ) (s : FlowState) (c : Refs) (P : Fin n → Panel) (k : ℝ)
    (gamma : Fin n → ℝ) (x : V3 ℝ) :
    flowAt eps (s.faster k) c P (fun i => k * gamma i) x = k • flowAt eps s c P gamma x := by
  unfold flowAt
  have : ∑ j, (k * gamma j) • horseshoe eps x (P j) =
      k • ∑ j, gamma j • horseshoe eps x (P j) := by
    rw [smul_sum']
    refine Finset.sum_congr rfl fun j _ => ?_
    generalize horseshoe eps x (P j) = w
    ext <;> vsimp <;> ring
  rw [this]
  generalize (∑ j, gamma j • horseshoe eps x (P j)) = w
  unfold freestream FlowState.faster FlowState.omega
  simp only
  generalize freestreamDir (deg2rad s.alpha) (deg2rad s.beta) = u
  ext <;> vsimp <;> ring

theorem dot_smul_left (k : ℝ) (u v : V3 ℝ) : (k • u).dot v = k * u.dot v := by
  vsimp; ring

/-- **C37**: airspeed and rates times `k`: the circulation is multiplied by `k`, loads by `k²`,
coefficients stay. -/
theorem C37_airspeed (eps : ℝ) (s : FlowState) (c : Refs) (P : Fin n → Panel) (k : ℝ)
    (hk : 0 < k) (A : Matrix (Fin n) (Fin n) ℝ) (hA : vlmDownwash eps P = some A)
    (hu : IsUnit A.det) (gamma gamma' : Fin n → ℝ)
    (h1 : Solves A (vlmBoundary s c P) gamma)
    (h2 : Solves A (vlmBoundary (s.faster k) c P) gamma') :
    (∀ i, gamma' i = k * gamma i) ∧
    ∀ R, vlmResults eps s c P gamma = some R →
      ∃ R', vlmResults eps (s.faster k) c P gamma' = some R' ∧
        (∀ i, R'.f i = k ^ 2 • R.f i) ∧ R'.ftot = k ^ 2 • R.ftot ∧ R'.mtot = k ^ 2 • R.mtot ∧
        R'.wind = k ^ 2 • R.wind ∧ (∀ i, R'.iw i = k • R.iw i) ∧
        (s.airspeed ≠ 0 → s.rho ≠ 0 → R'.coeffs = R.coeffs ∧ R'.cp = R.cp) := by
  have h3 : Solves A (vlmBoundary (s.faster k) c P) (fun i => k * gamma i) := by
    rw [C25_flow_tangency eps _ _ _ _ hA] at h1 ⊢
    intro i
    rw [flowAt_faster, dot_smul_left, h1 i, mul_zero]
  have hg : gamma' = fun i => k * gamma i := by
    have : A.mulVec gamma' = A.mulVec (fun i => k * gamma i) := h2.trans h3.symm
    exact Matrix.mulVec_injective_of_isUnit ((Matrix.isUnit_iff_isUnit_det _).2 hu) this
  subst hg
  refine ⟨fun _ => rfl, ?_⟩
  intro R h
  obtain ⟨hok, rfl⟩ := vlmResults_some h
  have hf : ∀ i, panelForce eps (s.faster k) c P (fun i => k * gamma i) i =
      k ^ 2 • panelForce eps s c P gamma i := by
    intro i
    rw [panelForce_eq, panelForce_eq, panelVel_eq, panelVel_eq, flowAt_faster]
    generalize flowAt eps s c P gamma (P i).mid = v
    show (s.rho * (k * gamma i)) • _ = _
    ext <;> vsimp <;> ring
  have hm : ∀ i, panelMoment eps (s.faster k) c P (fun i => k * gamma i) i =
      k ^ 2 • panelMoment eps s c P gamma i := by
    intro i
    unfold panelMoment
    rw [hf]
    generalize panelForce eps s c P gamma i = v
    ext <;> vsimp <;> ring
  have hF : ∑ i, panelForce eps (s.faster k) c P (fun i => k * gamma i) i =
      k ^ 2 • ∑ i, panelForce eps s c P gamma i := by
    rw [smul_sum']
    exact Finset.sum_congr rfl fun i _ => hf i
  have hM : ∑ i, panelMoment eps (s.faster k) c P (fun i => k * gamma i) i =
      k ^ 2 • ∑ i, panelMoment eps s c P gamma i := by
    rw [smul_sum']
    exact Finset.sum_congr rfl fun i _ => hm i
  have hW : ∀ f : V3 ℝ, bodyToWind (s.faster k) (k ^ 2 • f) = k ^ 2 • bodyToWind s f := by
    intro f
    unfold bodyToWind FlowState.faster
    ext <;> vsimp <;> ring
  have hq : dynPressure (s.faster k) = k ^ 2 * dynPressure s := by
    unfold dynPressure FlowState.faster; ring
  refine ⟨_, vlmResults_mk hok _ c _, hf, hF, hM, ?_, ?_, ?_⟩
  · simp only [sumResults]
    rw [hF, hW]
  · intro i
    simp only [sumResults]
    rw [inwash_eq, inwash_eq, smul_sum']
    refine Finset.sum_congr rfl fun j _ => ?_
    generalize horseshoe eps (P i).mid (P j) = w
    ext <;> vsimp <;> ring
  · intro hv hr
    have hk2 : k ^ 2 ≠ 0 := by positivity
    have hq0 : dynPressure s ≠ 0 := by
      unfold dynPressure
      positivity
    have hq1 : k ^ 2 * dynPressure s ≠ 0 := mul_ne_zero hk2 hq0
    have hc : ∀ x y : ℝ, cdiv (k ^ 2 * x) (k ^ 2 * y) = cdiv x y := by
      intro x y
      unfold cdiv
      rw [mul_div_mul_left _ _ hk2]
      simp [hk.ne']
    constructor
    · simp only [sumResults]
      rw [hF, hM]
      unfold vlmCoeffs
      simp only [hW, hq, if_neg hq0, if_neg hq1, smul_x, smul_y, smul_z]
      simp only [mul_assoc, hc]
    · funext i
      show panelCp _ _ _ _ _ _ = panelCp _ _ _ _ _ _
      unfold panelCp
      rw [hf, hq, mul_assoc, dot_smul_left, hc]

/-! ## C38 -/

/-- The panel moved by `t`. -/
def Panel.moved (t : V3 ℝ) (g : Panel) : Panel :=
  { g with v1 := g.v1 + t, v2 := g.v2 + t, v3 := g.v3 + t, v4 := g.v4 + t,
           col := g.col + t, mid := g.mid + t }

/-- Reference points moved by `t`. -/
def Refs.moved (t : V3 ℝ) (c : Refs) : Refs := { c with cg := c.cg + t, rp := c.rp + t }

/-- Corners moved by `t`. -/
def Corners.moved (t : V3 ℝ) (c : Corners (V3 ℝ)) : Corners (V3 ℝ) :=
  ⟨c.a + t, c.b + t, c.c + t, c.d + t⟩

theorem horseshoe_moved (eps : ℝ) (t x : V3 ℝ) (g : Panel) :
    horseshoe eps (x + t) (g.moved t) = horseshoe eps x g := by
  unfold horseshoe Panel.moved
  simp only [kernel_translate]

theorem HorseshoeOk_moved (eps : ℝ) (t x : V3 ℝ) (g : Panel) :
    HorseshoeOk eps (x + t) (g.moved t) ↔ HorseshoeOk eps x g := by
  unfold HorseshoeOk Panel.moved
  simp only [KernelOk_translate]

/-- **C38**: the system and all results are the same after a translation of lattice, centre of
gravity and moment reference point. -/
theorem C38_translation (eps : ℝ) (s : FlowState) (c : Refs) (P : Fin n → Panel) (t : V3 ℝ) :
    vlmDownwash eps (fun i => (P i).moved t) = vlmDownwash eps P ∧
    vlmBoundary s (c.moved t) (fun i => (P i).moved t) = vlmBoundary s c P ∧
    ∀ gamma, vlmResults eps s (c.moved t) (fun i => (P i).moved t) gamma =
      vlmResults eps s c P gamma := by
  refine ⟨?_, ?_, ?_⟩
  · unfold vlmDownwash
    have e1 : ∀ i j, horseshoe eps ((P i).moved t).col ((P j).moved t) =
        horseshoe eps (P i).col (P j) := fun i j => horseshoe_moved _ _ _ _
    have e2 : ∀ i j, HorseshoeOk eps ((P i).moved t).col ((P j).moved t) ↔
        HorseshoeOk eps (P i).col (P j) := fun i j => HorseshoeOk_moved _ _ _ _
    by_cases hok : ∀ i j, HorseshoeOk eps (P i).col (P j)
    · rw [if_pos hok, if_pos fun i j => (e2 i j).2 (hok i j)]
      simp only [e1]
      rfl
    · rw [if_neg hok, if_neg fun h => hok fun i j => (e2 i j).1 (h i j)]
  · funext i
    show (velWind s + velRot s ((P i).col + t - (c.cg + t))).dot (P i).n = _
    rw [add_sub_add_right_eq_sub]
    rfl
  · intro gamma
    have e2 : ∀ i j, HorseshoeOk eps ((P i).moved t).mid ((P j).moved t) ↔
        HorseshoeOk eps (P i).mid (P j) := fun i j => HorseshoeOk_moved _ _ _ _
    have ei : ∀ i, inwash eps (fun i => (P i).moved t) gamma ((P i).moved t).mid =
        inwash eps P gamma (P i).mid := by
      intro i
      rw [inwash_eq, inwash_eq]
      exact Finset.sum_congr rfl fun j _ => congrArg _ (horseshoe_moved _ _ _ _)
    have ef : ∀ i, panelForce eps s (c.moved t) (fun i => (P i).moved t) gamma i =
        panelForce eps s c P gamma i := by
      intro i
      have h1 : ((P i).moved t).mid - (c.moved t).cg = (P i).mid - c.cg :=
        add_sub_add_right_eq_sub _ _ _
      have h2 : ((P i).moved t).v3 - ((P i).moved t).v2 = (P i).v3 - (P i).v2 :=
        add_sub_add_right_eq_sub _ _ _
      unfold panelForce panelVel
      rw [ei, h1, h2]
    have em : ∀ i, panelMoment eps s (c.moved t) (fun i => (P i).moved t) gamma i =
        panelMoment eps s c P gamma i := by
      intro i
      have h1 : ((P i).moved t).mid - (c.moved t).rp = (P i).mid - c.rp :=
        add_sub_add_right_eq_sub _ _ _
      unfold panelMoment
      rw [ef, h1]
    by_cases hok : ∀ i j, HorseshoeOk eps (P i).mid (P j)
    · rw [vlmResults_mk hok, vlmResults_mk fun i j => (e2 i j).2 (hok i j)]
      unfold sumResults
      simp only [ei, ef, em]
      have ep : panelCp eps s (c.moved t) (fun i => (P i).moved t) gamma =
          panelCp eps s c P gamma := by
        funext i
        unfold panelCp
        rw [ef]
        rfl
      have ef' : panelForce eps s (c.moved t) (fun i => (P i).moved t) gamma =
          panelForce eps s c P gamma := funext ef
      rw [ep, ef']
      rfl
    · unfold vlmResults
      rw [if_neg hok, if_neg fun h => hok fun i j => (e2 i j).1 (h i j)]

/-- **C38** for the lattice generator: moved corners give moved panels. -/
theorem C38_generated (pts : Corners (V3 ℝ)) (t leg : V3 ℝ) (nS nC : ℤ) (i j : ℕ) :
    (panelPts (Coef.of (pts.moved t)) leg nS nC i j).toPanel =
      ((panelPts (Coef.of pts) leg nS nC i j).toPanel).moved t := by
  have hat : ∀ a b : ℝ, (Coef.of (pts.moved t)).at a b = (Coef.of pts).at a b + t := by
    intro a b
    unfold Coef.at Coef.of Corners.moved
    ext <;> vsimp <;> ring
  have hc : (panelPts (Coef.of (pts.moved t)) leg nS nC i j).crossVec =
      (panelPts (Coef.of pts) leg nS nC i j).crossVec := by
    unfold PanelPts.crossVec panelPts
    simp only [hat]
    ext <;> vsimp <;> ring
  have hs : (panelPts (Coef.of (pts.moved t)) leg nS nC i j).spanVec =
      (panelPts (Coef.of pts) leg nS nC i j).spanVec := by
    unfold PanelPts.spanVec panelPts
    simp only [hat]
    ext <;> vsimp <;> ring
  have hch : (panelPts (Coef.of (pts.moved t)) leg nS nC i j).chordVec =
      (panelPts (Coef.of pts) leg nS nC i j).chordVec := by
    unfold PanelPts.chordVec panelPts
    simp only [hat]
    ext <;> vsimp <;> ring
  unfold PanelPts.toPanel Panel.moved
  simp only [PanelPts.normal, PanelPts.area, hc, hs, hch]
  unfold panelPts
  simp only [hat]
  generalize (Coef.of pts).at _ _ = p1
  generalize (Coef.of pts).at _ _ = p2
  generalize (Coef.of pts).at _ _ = p3
  generalize (Coef.of pts).at _ _ = p4
  ext <;> vsimp <;> ring

/-! ## C39 -/

/-- The mirror image (x-z plane) of a panel as a lattice stores it: the order of the vortex
corners is reversed. -/
def Panel.flip (g : Panel) : Panel :=
  ⟨flipY g.v4, flipY g.v3, flipY g.v2, flipY g.v1, flipY g.col, flipY g.mid, flipY g.n, g.area⟩

/-- A panel that lies in the x-z plane. -/
def Panel.InPlane (g : Panel) : Prop :=
  g.v1.y = 0 ∧ g.v2.y = 0 ∧ g.v3.y = 0 ∧ g.v4.y = 0 ∧ g.col.y = 0 ∧ g.mid.y = 0 ∧
    g.n.x = 0 ∧ g.n.z = 0

/-- A lattice that is symmetric with respect to the x-z plane: `σ i` is the number of the mirror
image of panel `i`; panels in the plane need no partner. -/
def SymmetricWith (σ : Equiv.Perm (Fin n)) (P : Fin n → Panel) : Prop :=
  ∀ i, (¬ (P i).InPlane ∧ P (σ i) = (P i).flip) ∨ ((P i).InPlane ∧ P (σ i) = P i)

open Classical in
/-- Minus one for panels in the plane. -/
noncomputable def Panel.sgn (g : Panel) : ℝ := if g.InPlane then -1 else 1

theorem sgn_mul_self (g : Panel) : g.sgn * g.sgn = 1 := by
  unfold Panel.sgn
  split_ifs <;> norm_num

theorem flipY_of {u : V3 ℝ} (h : u.y = 0) : flipY u = u := by
  ext <;> simp [h]

/-- What symmetry means for the quantities that enter the solver. -/
theorem SymmetricWith.facts {σ : Equiv.Perm (Fin n)} {P : Fin n → Panel}
    (h : SymmetricWith σ P) (i : Fin n) :
    (P (σ i)).col = flipY (P i).col ∧ (P (σ i)).mid = flipY (P i).mid ∧
    (P (σ i)).n = (P i).sgn • flipY (P i).n ∧
    (P (σ i)).v3 - (P (σ i)).v2 = -((P i).sgn • flipY ((P i).v3 - (P i).v2)) ∧
    (P (σ i)).area = (P i).area ∧
    ∀ eps x, horseshoe eps (flipY x) (P (σ i)) = (P i).sgn • flipY (horseshoe eps x (P i)) := by
  rcases h i with ⟨hn, e⟩ | ⟨hp, e⟩
  · have hs : (P i).sgn = 1 := if_neg hn
    rw [e, hs]
    refine ⟨rfl, rfl, ?_, ?_, rfl, ?_⟩
    · ext <;> simp [Panel.flip]
    · ext <;> simp [Panel.flip] <;> ring
    · intro eps x
      rw [horseshoe_eq, horseshoe_eq]
      simp only [Panel.flip, kernel_flip]
      rw [kernel_swap eps x (P i).v3, kernel_swap eps x (P i).v2, kernel_swap eps x (P i).v1]
      generalize kernel eps x (P i).v1 (P i).v2 = k1
      generalize kernel eps x (P i).v2 (P i).v3 = k2
      generalize kernel eps x (P i).v3 (P i).v4 = k3
      ext <;> simp <;> ring
  · have hs : (P i).sgn = -1 := if_pos hp
    obtain ⟨h1, h2, h3, h4, h5, h6, h7, h8⟩ := hp
    rw [e, hs]
    refine ⟨(flipY_of h5).symm, (flipY_of h6).symm, ?_, ?_, rfl, ?_⟩
    · ext <;> simp [h7, h8]
    · ext <;> simp [h2, h3]
    · intro eps x
      rw [horseshoe_eq, horseshoe_eq]
      nth_rw 1 [← flipY_of h1]
      nth_rw 1 2 [← flipY_of h2]
      nth_rw 1 2 [← flipY_of h3]
      nth_rw 1 [← flipY_of h4]
      simp only [kernel_flip]
      generalize kernel eps x (P i).v1 (P i).v2 = k1
      generalize kernel eps x (P i).v2 (P i).v3 = k2
      generalize kernel eps x (P i).v3 (P i).v4 = k3
      ext <;> simp <;> ring

/-- Symmetric flight: no sideslip, no roll and yaw rate. -/
def FlowState.Symmetric (s : FlowState) : Prop := s.beta = 0 ∧ s.p = 0 ∧ s.r = 0

/-- Reference points in the plane of symmetry. -/
def Refs.Symmetric (c : Refs) : Prop := c.cg.y = 0 ∧ c.rp.y = 0

/-- The onset flow of a symmetric state is symmetric. -/
theorem onset_flip {s : FlowState} (hs : s.Symmetric) {c : Refs} (hc : c.cg.y = 0) (x : V3 ℝ) :
    freestream s - s.omega.cross (flipY x - c.cg) =
      flipY (freestream s - s.omega.cross (x - c.cg)) := by
  obtain ⟨h1, h2, h3⟩ := hs
  unfold freestream FlowState.omega freestreamDir
  rw [h1, h2, h3]
  ext <;> simp [hc, deg2rad]

/-- The circulation taken over from the mirror image. -/
theorem flowAt_flip {σ : Equiv.Perm (Fin n)} {P : Fin n → Panel} (h : SymmetricWith σ P)
    {s : FlowState} (hs : s.Symmetric) {c : Refs} (hc : c.cg.y = 0) (eps : ℝ)
    (gamma : Fin n → ℝ) (x : V3 ℝ) :
    flowAt eps s c P gamma (flipY x) =
      flipY (flowAt eps s c P (fun i => (P i).sgn * gamma (σ i)) x) := by
  unfold flowAt
  rw [onset_flip hs hc, ← flipY_add]
  congr 1
  rw [flipY_sum, ← Equiv.sum_comp σ]
  refine Finset.sum_congr rfl fun j _ => ?_
  rw [(h.facts j).2.2.2.2.2]
  generalize horseshoe eps x (P j) = w
  ext <;> simp <;> ring

/-- Loads of a symmetric lattice with symmetric circulation in symmetric flight. -/
theorem symmetric_loads (eps : ℝ) (s : FlowState) (c : Refs) (σ : Equiv.Perm (Fin n))
    (P : Fin n → Panel) (h : SymmetricWith σ P) (hs : s.Symmetric) (hc : c.Symmetric)
    (gamma : Fin n → ℝ) (hgam : (fun i => (P i).sgn * gamma (σ i)) = gamma) (R : Results n)
    (hR : vlmResults eps s c P gamma = some R) :
    (∀ i, ¬ (P i).InPlane → gamma (σ i) = gamma i) ∧
    (∀ i, (P i).InPlane → gamma (σ i) = -gamma i) ∧
    (∀ i, R.f (σ i) = flipY (R.f i)) ∧
    R.ftot.y = 0 ∧ R.mtot.x = 0 ∧ R.mtot.z = 0 ∧ R.wind.y = 0 ∧
    (c.NonZero → R.coeffs.cy = some 0 ∧ R.coeffs.cC = some 0 ∧ R.coeffs.cl = some 0 ∧
      R.coeffs.cn = some 0) := by
  have hgi : ∀ i, gamma (σ i) = (P i).sgn * gamma i := by
    intro i
    have := congrFun hgam i
    rw [← this, ← mul_assoc, sgn_mul_self, one_mul]
  have hflow : ∀ x, flowAt eps s c P gamma (flipY x) = flipY (flowAt eps s c P gamma x) := by
    intro x
    rw [flowAt_flip h hs hc.1, hgam]
  obtain ⟨-, rfl⟩ := vlmResults_some hR
  have hf : ∀ i, panelForce eps s c P gamma (σ i) = flipY (panelForce eps s c P gamma i) := by
    intro i
    obtain ⟨-, e2, -, e4, -⟩ := h.facts i
    rw [panelForce_eq, panelForce_eq, panelVel_eq, panelVel_eq, e2, hflow, e4, hgi]
    have := sgn_mul_self (P i)
    generalize flowAt eps s c P gamma (P i).mid = V
    generalize (P i).v3 - (P i).v2 = L
    generalize (P i).sgn = k at *
    ext
    · simp only [smul_x, cross_x, neg_y, neg_z, smul_y, smul_z, flipY_x, flipY_y, flipY_z]
      linear_combination (s.rho * gamma i * (V.y * L.z - V.z * L.y)) * this
    · simp only [smul_y, cross_y, neg_x, neg_z, smul_x, smul_z, flipY_x, flipY_y, flipY_z]
      linear_combination -(s.rho * gamma i * (V.z * L.x - V.x * L.z)) * this
    · simp only [smul_z, cross_z, neg_y, neg_x, smul_y, smul_x, flipY_x, flipY_y, flipY_z]
      linear_combination (s.rho * gamma i * (V.x * L.y - V.y * L.x)) * this
  have hm : ∀ i, panelMoment eps s c P gamma (σ i) = -flipY (panelMoment eps s c P gamma i) := by
    intro i
    obtain ⟨-, e2, -⟩ := h.facts i
    unfold panelMoment
    rw [hf, e2]
    have : flipY (P i).mid - c.rp = flipY ((P i).mid - c.rp) := by
      rw [← flipY_sub, flipY_of hc.2]
    rw [this, flipY_cross]
  have hF : ∑ i, panelForce eps s c P gamma i = flipY (∑ i, panelForce eps s c P gamma i) := by
    rw [flipY_sum, ← Finset.sum_congr rfl fun i _ => hf i]
    exact (Equiv.sum_comp σ _).symm
  have hM : ∑ i, panelMoment eps s c P gamma i =
      -flipY (∑ i, panelMoment eps s c P gamma i) := by
    rw [flipY_sum, ← Finset.sum_neg_distrib, ← Finset.sum_congr rfl fun i _ => hm i]
    exact (Equiv.sum_comp σ _).symm
  have hFy : (∑ i, panelForce eps s c P gamma i).y = 0 := by
    have := congrArg V3.y hF
    rw [flipY_y] at this
    linarith
  have hMx : (∑ i, panelMoment eps s c P gamma i).x = 0 := by
    have := congrArg V3.x hM
    rw [neg_x, flipY_x] at this
    linarith
  have hMz : (∑ i, panelMoment eps s c P gamma i).z = 0 := by
    have := congrArg V3.z hM
    rw [neg_z, flipY_z] at this
    linarith
  have hw : (bodyToWind s (∑ i, panelForce eps s c P gamma i)).y = 0 := by
    unfold bodyToWind
    simp only
    rw [hs.1, hFy]
    simp [deg2rad]
  refine ⟨?_, ?_, hf, hFy, hMx, hMz, hw, ?_⟩
  · intro i hi
    rw [hgi, Panel.sgn, if_neg hi, one_mul]
  · intro i hi
    rw [hgi, Panel.sgn, if_pos hi, neg_one_mul]
  · rintro ⟨n1, n2, -⟩
    have hq : (if dynPressure s = 0 then 1 else dynPressure s) ≠ 0 := by split_ifs <;> simp [*]
    simp only [sumResults, vlmCoeffs, hFy, hMx, hMz, hw]
    generalize (if dynPressure s = 0 then 1 else dynPressure s) = q at *
    simp [cdiv_some, hq, n1, n2]

/-- **C39**: in symmetric flight with a unique solution, mirror images have equal circulation,
panel forces are mirror images, and side force, rolling and yawing moment vanish. -/
theorem C39_no_lateral_loads (eps : ℝ) (s : FlowState) (c : Refs) (σ : Equiv.Perm (Fin n))
    (P : Fin n → Panel) (h : SymmetricWith σ P) (hs : s.Symmetric) (hc : c.Symmetric)
    (A : Matrix (Fin n) (Fin n) ℝ) (hA : vlmDownwash eps P = some A) (hu : IsUnit A.det)
    (gamma : Fin n → ℝ) (hg : Solves A (vlmBoundary s c P) gamma) (R : Results n)
    (hR : vlmResults eps s c P gamma = some R) :
    (∀ i, ¬ (P i).InPlane → gamma (σ i) = gamma i) ∧
    (∀ i, (P i).InPlane → gamma (σ i) = -gamma i) ∧
    (∀ i, R.f (σ i) = flipY (R.f i)) ∧
    R.ftot.y = 0 ∧ R.mtot.x = 0 ∧ R.mtot.z = 0 ∧ R.wind.y = 0 ∧
    (c.NonZero → R.coeffs.cy = some 0 ∧ R.coeffs.cC = some 0 ∧ R.coeffs.cl = some 0 ∧
      R.coeffs.cn = some 0) := by
  have hsol : Solves A (vlmBoundary s c P) (fun i => (P i).sgn * gamma (σ i)) := by
    rw [C25_flow_tangency eps _ _ _ _ hA] at hg ⊢
    intro i
    have h1 := hg (σ i)
    obtain ⟨e1, -, e3, -⟩ := h.facts i
    rw [e1, flowAt_flip h hs hc.1, e3] at h1
    have h2 : (P i).sgn * (flowAt eps s c P (fun i => (P i).sgn * gamma (σ i)) (P i).col).dot
        (P i).n = 0 := by
      rw [← h1]
      generalize flowAt eps s c P (fun i => (P i).sgn * gamma (σ i)) (P i).col = w
      unfold V3.dot
      simp
      ring
    have h3 : (P i).sgn ≠ 0 := by
      intro h0
      have := sgn_mul_self (P i)
      rw [h0] at this
      norm_num at this
    exact (mul_eq_zero.1 h2).resolve_left h3
  have hgam : (fun i => (P i).sgn * gamma (σ i)) = gamma :=
    Matrix.mulVec_injective_of_isUnit ((Matrix.isUnit_iff_isUnit_det _).2 hu)
      (hsol.trans hg.symm)
  exact symmetric_loads eps s c σ P h hs hc gamma hgam R hR

end

/-! ### Symmetric lattices are generated -/

theorem perm_equiv {α : Type*} {l1 l2 : List α} (h : l1.Perm l2) :
    ∃ e : Fin l1.length ≃ Fin l2.length, ∀ i, l2.get (e i) = l1.get i := by
  induction h with
  | nil => exact ⟨Equiv.refl _, fun _ => rfl⟩
  | cons a _ ih =>
    obtain ⟨e, he⟩ := ih
    refine ⟨(finSuccEquiv _).trans ((Equiv.optionCongr e).trans (finSuccEquiv _).symm), ?_⟩
    intro i
    refine Fin.cases ?_ (fun j => ?_) i
    · rfl
    · simpa [finSuccEquiv_succ] using he j
  | swap a b l =>
    refine ⟨Equiv.swap 0 1, ?_⟩
    intro i
    refine Fin.cases ?_ (fun j => ?_) i
    · simp
    · refine Fin.cases ?_ (fun k => ?_) j
      · simp
      · rw [Equiv.swap_apply_of_ne_of_ne]
        · rfl
        · exact Fin.succ_ne_zero _
        · intro hk
          have := congrArg Fin.val hk
          simp at this
  | trans _ _ ih1 ih2 =>
    obtain ⟨e1, h1⟩ := ih1
    obtain ⟨e2, h2⟩ := ih2
    exact ⟨e1.trans e2, fun i => by rw [Equiv.trans_apply, h2, h1]⟩

theorem Panel.flip_flip (g : Panel) : g.flip.flip = g := by
  unfold Panel.flip
  simp only [flipY_flipY]

theorem Panel.InPlane.flip {g : Panel} (h : g.InPlane) : g.flip.InPlane := by
  obtain ⟨h1, h2, h3, h4, h5, h6, h7, h8⟩ := h
  unfold Panel.InPlane Panel.flip
  simp [*]

open Classical in
/-- Image of a panel under the symmetry. -/
noncomputable def Panel.image (g : Panel) : Panel := if g.InPlane then g else g.flip

/-- A list of panels that consists of panels in the plane and pairs of mirror images, in any
order. -/
theorem symmetric_of_perm {l : List Panel} (h : (l.map Panel.image).Perm l) :
    ∃ σ : Equiv.Perm (Fin l.length), SymmetricWith σ l.get := by
  obtain ⟨e, he⟩ := perm_equiv h
  have hl : (l.map Panel.image).length = l.length := List.length_map _
  refine ⟨(finCongr hl.symm).trans e, ?_⟩
  intro i
  have h1 := he (Fin.cast hl.symm i)
  have h2 : (l.map Panel.image).get (Fin.cast hl.symm i) = (l.get i).image := by simp
  rw [h2] at h1
  rw [Equiv.trans_apply]
  have h3 : l.get (e ((finCongr hl.symm) i)) = (l.get i).image := h1
  rw [h3]
  unfold Panel.image
  by_cases hp : (l.get i).InPlane
  · rw [if_pos hp]; exact .inr ⟨hp, rfl⟩
  · rw [if_neg hp]; exact .inl ⟨hp, rfl⟩

theorem image_inPlane {l : List Panel} (h : ∀ g ∈ l, g.InPlane) : l.map Panel.image = l := by
  rw [List.map_congr_left fun g hg => show g.image = id g from if_pos (h g hg), List.map_id]

theorem image_pairs (l : List Panel) :
    ((l ++ l.map Panel.flip).map Panel.image).Perm (l ++ l.map Panel.flip) := by
  induction l with
  | nil => exact .refl _
  | cons g l ih =>
    have e : ∀ (a b : Panel) (x y : List Panel), (a :: x ++ b :: y).Perm (a :: b :: (x ++ y)) :=
      fun a b x y => (List.perm_middle (a := b) (l₁ := x) (l₂ := y)).cons a
    rw [List.map_cons]
    refine ((e g g.flip l (l.map Panel.flip)).map Panel.image).trans ?_
    refine List.Perm.trans ?_ (e g g.flip l (l.map Panel.flip)).symm
    rw [List.map_cons, List.map_cons]
    by_cases hp : g.InPlane
    · have h1 : g.image = g := if_pos hp
      have h2 : g.flip.image = g.flip := if_pos hp.flip
      rw [h1, h2]
      exact (ih.cons _).cons _
    · have hq : ¬ g.flip.InPlane := fun h => hp (by rw [← g.flip_flip]; exact h.flip)
      have h1 : g.image = g.flip := if_neg hp
      have h2 : g.flip.image = g := by
        rw [← congrArg Panel.flip rfl]
        exact (if_neg hq).trans g.flip_flip
      rw [h1, h2]
      exact ((ih.cons _).cons _).trans (.swap _ _ _)

/-- All panels of a lattice in the order of their numbers. -/
noncomputable def latticePanels (leg : V3 ℝ) (l : List (SubInput ℝ)) : List Panel :=
  (vlmLattice leg l).map fun kp => kp.2.toPanel

theorem reflect_two (v : V3 ℝ) : reflect (symNormal 2 : V3 ℝ) v = flipY v := by
  unfold reflect symNormal
  ext <;> simp [V3.dot] <;> ring

/-- Panels of one row. -/
noncomputable def rowPanels (leg : V3 ℝ) (c : Corners (V3 ℝ)) (n : ℤ) : List Panel :=
  (List.range n.toNat).map fun i : ℕ => (panelPts (Coef.of c) leg 1 n i 0).toPanel

theorem rowPanels_flip {leg : V3 ℝ} (hl : leg.y = 0) (c : Corners (V3 ℝ)) (n : ℤ) :
    rowPanels leg ⟨flipY c.b, flipY c.a, flipY c.d, flipY c.c⟩ n =
      (rowPanels leg c n).map Panel.flip := by
  unfold rowPanels
  rw [List.map_map]
  refine List.map_congr_left fun i hi => ?_
  have hn : n = (n.toNat : ℤ) := by
    rw [List.mem_range] at hi
    omega
  have key := C40_mirrored_lattice c leg 1 n.toNat i 0 (by norm_num)
  simp only [reflect_two, Nat.sub_self, Nat.cast_one] at key
  rw [← hn] at key
  obtain ⟨-, -, -, -, h1, h2, h3, h4, h5, h6, -, h7⟩ := key
  obtain ⟨h8, h9⟩ := h7 hl
  show _ = Panel.flip _
  unfold Panel.flip PanelPts.toPanel
  simp only [h1, h2, h3, h4, h5, h6, h8, h9]

theorem rowPanels_inPlane {leg : V3 ℝ} (hl : leg.y = 0) {c : Corners (V3 ℝ)} (n : ℤ)
    (h : c.a.y = 0 ∧ c.b.y = 0 ∧ c.c.y = 0 ∧ c.d.y = 0) :
    ∀ g ∈ rowPanels leg c n, g.InPlane := by
  intro g hg
  unfold rowPanels at hg
  obtain ⟨i, -, rfl⟩ := List.mem_map.1 hg
  obtain ⟨h1, h2, h3, h4⟩ := h
  have hat : ∀ x y : ℝ, ((Coef.of c).at x y).y = 0 := by
    intro x y
    unfold Coef.at Coef.of
    simp [h1, h2, h3, h4]
  unfold Panel.InPlane PanelPts.toPanel PanelPts.normal PanelPts.crossVec panelPts
  refine ⟨?_, ?_, ?_, ?_, ?_, ?_, ?_, ?_⟩ <;> simp [hat, hl]

section
variable {K : Type*} [Field K] [LinearOrder K] [IsStrictOrderedRing K] [FloorRing K]

/-- **C39** for generated lattices: if the wings have symmetry 2 or lie in the plane, the corners
of mirrored entries are those of `C40_corners_delivered`, and there is no sideslip, then the lattice
generated for the whole aircraft is symmetric. -/
theorem C39_generated_symmetric (ac ac' : PAircraft K) (hu : ac.Unpanelled)
    (h : prePanelling ac = .ok ac') (hn : ac.NumC 0) (alpha : ℝ)
    (corners : BookEntry → Corners (V3 ℝ))
    (hc : ∀ t ∈ allSubareas ac', t.2.2.2.2.symmetry ≠ 0 → ∀ e e' : BookEntry,
      e.path = ⟨t.2.2.2.1, t.2.2.1.1, t.2.1.1, t.1.1⟩ → e'.path = e.path →
      e.mirror = false → e'.mirror = true → corners e' =
      ⟨reflect (symNormal 2) (corners e).b, reflect (symNormal 2) (corners e).a,
        reflect (symNormal 2) (corners e).d, reflect (symNormal 2) (corners e).c⟩)
    (hp : ∀ t ∈ allSubareas ac', t.2.2.2.2.symmetry = 0 → ∀ e : BookEntry,
      e.path = ⟨t.2.2.2.1, t.2.2.1.1, t.2.1.1, t.1.1⟩ →
      (corners e).a.y = 0 ∧ (corners e).b.y = 0 ∧ (corners e).c.y = 0 ∧ (corners e).d.y = 0) :
    ∃ b, genBook ac' = .ok b ∧
      ∃ σ, SymmetricWith σ (latticePanels (trailLeg alpha 0) (b.inputs corners)).get := by
  obtain ⟨b, gs, hb, h1, h2, h3, -⟩ := genBook_facts hu h le_rfl hn
  refine ⟨b, hb, symmetric_of_perm ?_⟩
  have hl : (trailLeg alpha 0).y = 0 := by
    unfold trailLeg freestreamDir deg2rad
    simp
  generalize trailLeg alpha 0 = leg at hl
  have e : latticePanels leg (b.inputs corners) =
      b.entries.flatMap fun e => rowPanels leg (corners e) e.numC := by
    obtain ⟨ls, g1, g2⟩ := latticeFrom_entries leg corners h3
    unfold latticePanels vlmLattice
    rw [Book.inputs_eq, ← g1]
    clear g1 h3 h2
    generalize b.entries = es at g2
    induction g2 with
    | nil => rfl
    | cons hd _ ih =>
      rw [List.flatten_cons, List.map_append, List.flatMap_cons, ih]
      congr 1
      have := congrArg (List.map PanelPts.toPanel) hd.2
      rw [List.map_map, List.map_map] at this
      exact this
  rw [e, ← h2]
  clear e h3 h2 hb
  generalize allSubareas ac' = ts at h1 hp hc
  induction h1 with
  | nil => exact .refl _
  | @cons t g ts gs hd _ ih =>
    rw [List.flatten_cons, List.flatMap_append, List.map_append]
    refine List.Perm.append ?_ (ih (fun t ht => hp t (List.mem_cons_of_mem _ ht))
      fun t ht => hc t (List.mem_cons_of_mem _ ht))
    obtain ⟨e, m1, -, m3, -, ⟨ms, rfl⟩ | ⟨ms, e', rfl, n1, -, n3, n4, -⟩⟩ := hd
    · rw [List.flatMap_singleton,
        image_inPlane (rowPanels_inPlane hl _ (hp t (by simp) ms e m3))]
    · rw [List.flatMap_cons, List.flatMap_singleton, hc t (by simp) ms e e' m3 n3 m1 n1, n4]
      simp only [reflect_two]
      rw [rowPanels_flip hl]
      exact image_pairs _

end

/-! ### Non-vacuity -/

/-- A swept-back row of one panel on each side, with rational distances between all points. -/
noncomputable def rightPanel : Panel :=
  ⟨⟨48, 11/2, 0⟩, ⟨0, 11/2, 0⟩, ⟨0, 39/2, 0⟩, ⟨48, 39/2, 0⟩, ⟨24, 25/2, 0⟩, ⟨0, 25/2, 0⟩,
   ⟨0, 0, -1⟩, 14 * 48⟩

/-- Right panel and its mirror image. -/
noncomputable def twoPanels : Fin 2 → Panel := ![rightPanel, rightPanel.flip]

theorem norm_of_sq {u : V3 ℝ} {k : ℝ} (hk : 0 ≤ k) (h : u.dot u = k ^ 2) : u.norm = k := by
  unfold V3.norm
  unfold V3.dot at h
  rw [h]
  exact Real.sqrt_sq hk

theorem twoPanels_symmetric : SymmetricWith (Equiv.swap 0 1) twoPanels := by
  have h : ¬ rightPanel.InPlane := by
    unfold Panel.InPlane rightPanel
    norm_num
  have h' : ¬ rightPanel.flip.InPlane := fun h2 => h (by rw [← rightPanel.flip_flip]; exact h2.flip)
  intro i
  fin_cases i
  · exact .inl ⟨h, by simp [twoPanels]⟩
  · exact .inl ⟨h', by simp [twoPanels, Panel.flip_flip]⟩

/-- Influence of a filament in the plane `z = 0` on a point with known distances. -/
theorem kernel_value (eps : ℝ) (x a b : V3 ℝ) {k1 k2 : ℝ} (h1 : 0 ≤ k1) (h2 : 0 ≤ k2)
    (e1 : (x - a).dot (x - a) = k1 ^ 2) (e2 : (x - b).dot (x - b) = k2 ^ 2) :
    kernel eps x a b = (1 / (4 * Real.pi) * (1 / ((x - a).dot (x - b) + k1 * k2 * (1 + eps))) *
      (1 / k1 + 1 / k2)) • (x - a).cross (x - b) := by
  unfold kernel kernelDen
  simp only [norm_of_sq h1 e1, norm_of_sq h2 e2]

theorem twoPanels_matrix : ∃ A, vlmDownwash (1 / 1000000) twoPanels = some A ∧ IsUnit A.det := by
  have hA : ∃ A, vlmDownwash (1 / 1000000) twoPanels = some A := by
    rw [C26_matrix_defined _ (by norm_num)]
    intro i j v hv hcol
    fin_cases i <;> fin_cases j <;>
      simp only [twoPanels, rightPanel, Panel.flip, flipY, List.mem_cons, List.not_mem_nil,
        or_false, Fin.zero_eta, Fin.mk_one, Matrix.cons_val_zero, Matrix.cons_val_one] at hv hcol <;>
      rcases hv with rfl | rfl | rfl | rfl <;> norm_num at hcol
  obtain ⟨A, hA⟩ := hA
  refine ⟨A, hA, ?_⟩
  obtain ⟨-, hij⟩ := vlmDownwash_some hA
  have hd : rightPanel.flip.col = flipY rightPanel.col := rfl
  have own : horseshoe (1 / 1000000) rightPanel.col rightPanel =
      ⟨0, 0, (1 / (4 * Real.pi)) * (-55096158208 / 96338586667)⟩ := by
    rw [horseshoe_eq, kernel_value (k1 := 25) (k2 := 25), kernel_value (k1 := 25) (k2 := 25),
      kernel_value (k1 := 25) (k2 := 25)]
    · generalize 1 / (4 * Real.pi) = q
      unfold rightPanel
      ext <;> simp [V3.dot] <;> ring
    all_goals (try unfold rightPanel) <;> norm_num [V3.dot]
  have other : horseshoe (1 / 1000000) rightPanel.col rightPanel.flip =
      ⟨0, 0, (1 / (4 * Real.pi)) * (77772846053333000 / 1806340841603960001)⟩ := by
    rw [horseshoe_eq, kernel_value (k1 := 40) (k2 := 40), kernel_value (k1 := 40) (k2 := 30),
      kernel_value (k1 := 30) (k2 := 30)]
    · generalize 1 / (4 * Real.pi) = q
      unfold rightPanel Panel.flip
      ext <;> simp [V3.dot] <;> ring
    all_goals (try unfold rightPanel Panel.flip flipY) <;> norm_num [V3.dot]
  have e0 := fun x => ((twoPanels_symmetric).facts 0).2.2.2.2.2 (1 / 1000000) x
  have e1 := fun x => ((twoPanels_symmetric).facts 1).2.2.2.2.2 (1 / 1000000) x
  have hs : rightPanel.sgn = 1 := by
    unfold Panel.sgn Panel.InPlane rightPanel
    norm_num
  have hs' : rightPanel.flip.sgn = 1 := by
    unfold Panel.sgn Panel.InPlane Panel.flip rightPanel
    norm_num
  simp only [twoPanels, Equiv.swap_apply_left, Equiv.swap_apply_right, Matrix.cons_val_zero,
    Matrix.cons_val_one, hs, hs'] at e0 e1
  rw [Matrix.det_fin_two, hij, hij, hij, hij, isUnit_iff_ne_zero]
  simp only [twoPanels, Matrix.cons_val_zero, Matrix.cons_val_one]
  rw [hd, e0, e1, own, other]
  have hq : (1 / (4 * Real.pi)) ≠ 0 := by positivity
  generalize 1 / (4 * Real.pi) = q at hq
  unfold rightPanel Panel.flip
  simp only [V3.dot, flipY_z, smul_z, flipY_x, flipY_y]
  intro h0
  have h1 : q ^ 2 * ((55096158208 / 96338586667) ^ 2 -
      (77772846053333000 / 1806340841603960001) ^ 2) = 0 := by linear_combination h0
  rcases mul_eq_zero.1 h1 with h2 | h2
  · exact hq (pow_eq_zero_iff (two_ne_zero)|>.1 h2)
  · norm_num at h2

/-- A state in symmetric flight, with a pitch rate. -/
def symState : FlowState := ⟨50, 1, 5, 0, 0, 2, 0⟩

/-- Reference quantities for the examples. -/
def symRefs : Refs := ⟨⟨10, 0, 0⟩, ⟨12, 0, 1⟩, 1344, 39, 48⟩

theorem twoPanels_results (s : FlowState) (c : Refs) (gamma : Fin 2 → ℝ) :
    ∃ R, vlmResults (1 / 1000000) s c twoPanels gamma = some R := by
  rw [C26_results_defined _ (by norm_num)]
  intro i j v hv hcol
  fin_cases i <;> fin_cases j <;>
    simp only [twoPanels, rightPanel, Panel.flip, flipY, List.mem_cons, List.not_mem_nil,
      or_false, Fin.zero_eta, Fin.mk_one, Matrix.cons_val_zero, Matrix.cons_val_one] at hv hcol <;>
    rcases hv with rfl | rfl | rfl | rfl <;> norm_num at hcol

theorem twoPanels_solution (s : FlowState) (c : Refs) :
    ∃ A gamma R, vlmDownwash (1 / 1000000) twoPanels = some A ∧ IsUnit A.det ∧
      Solves A (vlmBoundary s c twoPanels) gamma ∧
      vlmResults (1 / 1000000) s c twoPanels gamma = some R := by
  obtain ⟨A, hA, hu⟩ := twoPanels_matrix
  obtain ⟨R, hR⟩ := twoPanels_results s c (A⁻¹.mulVec (vlmBoundary s c twoPanels))
  refine ⟨A, _, R, hA, hu, ?_, hR⟩
  unfold Solves
  rw [Matrix.mulVec_mulVec, Matrix.mul_nonsing_inv _ hu, Matrix.one_mulVec]

/-- All hypotheses of C39 (so those of C25, C29–C31, C34, C36–C38) hold for this lattice, and the
circulation is not zero. -/
example : ∃ A gamma R, vlmDownwash (1 / 1000000) twoPanels = some A ∧ IsUnit A.det ∧
    Solves A (vlmBoundary symState symRefs twoPanels) gamma ∧
    vlmResults (1 / 1000000) symState symRefs twoPanels gamma = some R ∧
    SymmetricWith (Equiv.swap 0 1) twoPanels ∧ symState.Symmetric ∧ symRefs.Symmetric ∧
    symRefs.NonZero ∧ symState.airspeed ≠ 0 ∧ symState.rho ≠ 0 ∧ gamma 0 ≠ 0 := by
  obtain ⟨A, gamma, R, hA, hu, hg, hR⟩ := twoPanels_solution symState symRefs
  have hs : symState.Symmetric := ⟨rfl, rfl, rfl⟩
  have hc : symRefs.Symmetric := ⟨rfl, rfl⟩
  refine ⟨A, gamma, R, hA, hu, hg, hR, twoPanels_symmetric, hs, hc, ?_, ?_, ?_, ?_⟩
  · unfold symRefs Refs.NonZero; norm_num
  · unfold symState; norm_num
  · unfold symState; norm_num
  · intro h0
    have hn : ¬ (twoPanels 0).InPlane := by
      show ¬ rightPanel.InPlane
      unfold Panel.InPlane rightPanel
      norm_num
    have h1 := (C39_no_lateral_loads _ _ _ _ _ twoPanels_symmetric hs hc A hA hu gamma hg R hR).1
      0 hn
    rw [Equiv.swap_apply_left, h0] at h1
    have hz : gamma = 0 := by
      funext i
      fin_cases i
      · exact h0
      · exact h1
    have h2 := congrFun hg 0
    rw [hz, Matrix.mulVec_zero] at h2
    unfold vlmBoundary velWind velRot symState symRefs freestreamDir at h2
    have h3 : (twoPanels 0).n = ⟨0, 0, -1⟩ := rfl
    have h4 : (twoPanels 0).col = ⟨24, 25/2, 0⟩ := rfl
    rw [h3, h4] at h2
    have h5 : 0 < Real.sin (deg2rad 5) := by
      apply Real.sin_pos_of_pos_of_lt_pi
      · unfold deg2rad; positivity
      · unfold deg2rad
        nlinarith [Real.pi_pos]
    simp [V3.dot, deg2rad] at h2
    unfold deg2rad at h5
    linarith

/-- Corners for the example: one quadrilateral (swept, with dihedral) and its mirror image. -/
noncomputable def demoCorners (e : BookEntry) : Corners (V3 ℝ) :=
  let c : Corners (V3 ℝ) := ⟨⟨0, 1, 0⟩, ⟨1, 5, 1⟩, ⟨3, 5, 1⟩, ⟨4, 1, 0⟩⟩
  if e.mirror then ⟨reflect (symNormal 2) c.b, reflect (symNormal 2) c.a,
    reflect (symNormal 2) c.d, reflect (symNormal 2) c.c⟩ else c

/-- The lattice of the demo aircraft is symmetric. -/
example : ∃ ac' b, prePanelling demoAircraftC = .ok ac' ∧ genBook ac' = .ok b ∧ b.numP = 114 ∧
    ∃ σ, SymmetricWith σ (latticePanels (trailLeg 3 0) (b.inputs demoCorners)).get := by
  obtain ⟨hu, hn, h3⟩ := demoAircraftC_ok
  have hsym : ((prePanelling demoAircraftC).toOption.map fun a =>
      (allSubareas a).all fun t => t.2.2.2.2.symmetry == 2) = some true := by decide +kernel
  cases h : prePanelling demoAircraftC with
  | error e => simp [h, Except.toOption] at h3
  | ok ac' =>
    simp only [h, Except.toOption, Option.map_some, Option.some.injEq, List.all_eq_true,
      beq_iff_eq] at hsym
    have hn0 : demoAircraftC.NumC 0 := by
      intro w hw
      simp only [demoAircraftC, demoAircraft, demoWing, List.map_cons, List.map_nil,
        List.mem_singleton] at hw
      subst hw
      simp
    obtain ⟨b, hb, hσ⟩ := C39_generated_symmetric demoAircraftC ac' hu h hn0 3 demoCorners
      (by
        intro t _ _ e e' _ _ m m'
        simp [demoCorners, m, m'])
      (by
        intro t ht h0
        rw [hsym t ht] at h0
        exact absurd h0 (by norm_num))
    refine ⟨ac', b, rfl, hb, ?_, hσ⟩
    simp only [h, hb, Except.toOption, Option.bind_some, Option.map_some, Option.some.injEq,
      Prod.mk.injEq] at h3
    exact h3.1

/-- C27, C28: a point off the filament, and one on it. -/
example : ((⟨24, 7, 0⟩ : V3 ℝ) - 0).cross ((⟨24, 7, 0⟩ : V3 ℝ) - ⟨0, 14, 0⟩) ≠ 0 := by
  intro h
  have := congrArg V3.z h
  norm_num at this

end Verif
