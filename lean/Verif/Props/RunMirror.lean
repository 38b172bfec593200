import Verif.Props.RunInvariance

/-!
# Property C96: mirrored flight states of a symmetric aircraft
-/

set_option linter.unnecessarySeqFocus false

namespace Verif

open V3

/-! ## Specification -/

/-- Entry `p` of flight state `i`, if finite, has the opposite sign in the second collection. -/
def EntryReversed (st st' : FlightSt ℝ) (p : String) (i : ℕ) : Prop := EntryTimes (-1) st st' p i

/-- Flight state `i` of the second collection is the mirror image of that of the first: sideslip, roll
and yaw rate are reversed, everything else is the same. -/
def MirroredAt (st st' : FlightSt ℝ) (i : ℕ) : Prop :=
  (∀ p ∈ ["beta", "rate_P", "rate_R"], EntryReversed st st' p i) ∧
  ∀ p ∈ ["airspeed", "density", "alpha", "rate_Q"], EntryTimes 1 st st' p i

/-! ## Lattices with other trailing legs -/

/-- The lattice with other trailing legs. -/
def LatticeData.withLeg (leg : V3 ℝ) (l : LatticeData) : LatticeData :=
  { l with pts := fun k => (l.pts k).map (PanelPts.withLeg leg) }

/-- A panel with other trailing legs, as read by the solver. -/
def Panel.withLeg (leg : V3 ℝ) (g : Panel) : Panel := { g with v1 := g.v2 + leg, v4 := g.v3 + leg }

theorem genLattice_leg {env : LatticeEnv} {doRot : Bool} {alpha beta : ℝ} {ac : PAircraft ℝ}
    {l : LatticeData} (h : genLattice env doRot alpha beta ac = .ok l) (alpha' beta' : ℝ) :
    genLattice env doRot alpha' beta' ac = .ok (l.withLeg (trailLeg alpha' beta')) := by
  obtain ⟨cs, k1, k2, k3, k4, k5, k6⟩ := genLattice_ok h
  have hpts : ∀ k, lastPanel (vlmLattice (trailLeg alpha' beta') (l.book.inputsOf cs)) k =
      (l.pts k).map (PanelPts.withLeg (trailLeg alpha' beta')) := by
    intro k
    rw [k4]
    unfold vlmLattice
    rw [latticeFrom_leg (trailLeg alpha beta) (trailLeg alpha' beta'), lastPanel_leg]
  have hn0 : (fun k => (lastPanel (vlmLattice (trailLeg alpha' beta') (l.book.inputsOf cs)) k).bind
      PanelPts.finNormal) = fun k => (l.pts k).bind PanelPts.finNormal := by
    funext k
    rw [hpts]
    cases l.pts k with
    | none => rfl
    | some g => rfl
  have := genLattice_build (env := env) (doRot := doRot) (alpha := alpha') (beta := beta')
    (n := l.normal) k1 k2 k3 (by
      rw [hn0]
      cases doRot with
      | false => exact k5 rfl
      | true => exact k6 rfl)
  rw [this]
  congr 1
  unfold LatticeData.withLeg
  congr 1
  funext k
  exact hpts k

theorem panel_withLeg {l : LatticeData} {leg : V3 ℝ} {k : ℕ} {g : Panel}
    (h : l.panel k = some g) : (l.withLeg leg).panel k = some (g.withLeg leg) := by
  obtain ⟨q, n, h1, h2, rfl⟩ := panelAt_some h
  unfold LatticeData.panel LatticeData.panelAt LatticeData.withLeg
  simp only [h1, h2, Option.map_some]
  rfl

/-- The panels of a lattice have the trailing legs of the flow direction. -/
theorem panel_leg {env : LatticeEnv} {doRot : Bool} {alpha beta : ℝ} {ac : PAircraft ℝ}
    {l : LatticeData} (h : genLattice env doRot alpha beta ac = .ok l) {k : ℕ} {g : Panel}
    (hg : l.panel k = some g) : g.withLeg (trailLeg alpha beta) = g := by
  have h1 := genLattice_leg h alpha beta
  rw [h] at h1
  simp only [Except.ok.injEq] at h1
  have h2 := panel_withLeg (leg := trailLeg alpha beta) hg
  rw [← h1, hg] at h2
  exact (Option.some.inj h2).symm

theorem trailLeg_neg (alpha beta : ℝ) : trailLeg alpha (-beta) = flipY (trailLeg alpha beta) := by
  unfold trailLeg freestreamDir deg2rad
  rw [neg_mul, Real.cos_neg, Real.sin_neg]
  ext <;> simp

/-! ## Mirrored lattices -/

section
variable {n : ℕ}

/-- What it means for the solver that the second lattice is the mirror image of the first, up to a
permutation of the panels; `k i` is minus one for panels in the plane of symmetry. -/
structure MirrorPair (σ : Equiv.Perm (Fin n)) (k : Fin n → ℝ) (P P' : Fin n → Panel) : Prop where
  sq : ∀ i, k i * k i = 1
  col : ∀ i, (P' (σ i)).col = flipY (P i).col
  mid : ∀ i, (P' (σ i)).mid = flipY (P i).mid
  normal : ∀ i, (P' (σ i)).n = k i • flipY (P i).n
  bound : ∀ i, (P' (σ i)).v3 - (P' (σ i)).v2 = -(k i • flipY ((P i).v3 - (P i).v2))
  induced : ∀ i eps x, horseshoe eps (flipY x) (P' (σ i)) = k i • flipY (horseshoe eps x (P i))
  ok : ∀ i eps x, HorseshoeOk eps (flipY x) (P' (σ i)) ↔ HorseshoeOk eps x (P i)

theorem SymmetricWith.mirrorPair {σ : Equiv.Perm (Fin n)} {P : Fin n → Panel}
    (h : SymmetricWith σ P) (leg : V3 ℝ) :
    MirrorPair σ (fun i => (P i).sgn) (fun i => (P i).withLeg leg)
      (fun i => (P i).withLeg (flipY leg)) := by
  have hout : ∀ i, ¬ (P i).InPlane →
      (P (σ i)).withLeg (flipY leg) = ((P i).withLeg leg).flip := by
    intro i hi
    rcases h i with ⟨-, e⟩ | ⟨hp, -⟩
    · rw [e]
      unfold Panel.withLeg Panel.flip
      simp only [flipY_add]
    · exact absurd hp hi
  have hin : ∀ i, (P i).InPlane → (P (σ i)).withLeg (flipY leg) =
      { (P i).withLeg (flipY leg) with
        v1 := flipY ((P i).withLeg leg).v1, v2 := flipY (P i).v2, v3 := flipY (P i).v3
        v4 := flipY ((P i).withLeg leg).v4 } := by
    intro i hi
    rcases h i with ⟨hp, -⟩ | ⟨⟨h1, h2, h3, h4, -⟩, e⟩
    · exact absurd hi hp
    · rw [e]
      unfold Panel.withLeg
      simp only [← flipY_add, flipY_of h2, flipY_of h3]
  refine ⟨fun i => sgn_mul_self _, fun i => (h.facts i).1, fun i => (h.facts i).2.1,
    fun i => (h.facts i).2.2.1, fun i => (h.facts i).2.2.2.1, ?_, ?_⟩
  · intro i eps x
    by_cases hp : (P i).InPlane
    · have hs : (P i).sgn = -1 := if_pos hp
      rw [hin i hp, hs, horseshoe_eq, horseshoe_eq]
      simp only [kernel_flip, Panel.withLeg]
      generalize kernel eps x _ (P i).v2 = k1
      generalize kernel eps x (P i).v2 (P i).v3 = k2
      generalize kernel eps x (P i).v3 _ = k3
      ext <;> simp <;> ring
    · have hs : (P i).sgn = 1 := if_neg hp
      rw [hout i hp, hs, horseshoe_eq, horseshoe_eq]
      generalize (P i).withLeg leg = g
      simp only [Panel.flip, kernel_flip]
      rw [kernel_swap eps x g.v3, kernel_swap eps x g.v2, kernel_swap eps x g.v1]
      generalize kernel eps x g.v1 g.v2 = k1
      generalize kernel eps x g.v2 g.v3 = k2
      generalize kernel eps x g.v3 g.v4 = k3
      ext <;> simp <;> ring
  · intro i eps x
    by_cases hp : (P i).InPlane
    · rw [hin i hp]
      unfold HorseshoeOk
      simp only [KernelOk_flip, Panel.withLeg]
    · rw [hout i hp]
      generalize (P i).withLeg leg = g
      unfold HorseshoeOk
      simp only [Panel.flip, KernelOk_flip]
      rw [KernelOk_swap eps x g.v3, KernelOk_swap eps x g.v2, KernelOk_swap eps x g.v1]
      tauto

/-- The mirror image of a state of flow. -/
def FlowState.mirrored (s : FlowState) : FlowState := { s with beta := -s.beta, p := -s.p, r := -s.r }

theorem onset_mirrored (s : FlowState) {c : Refs} (hc : c.cg.y = 0) (x : V3 ℝ) :
    velWind s.mirrored + velRot s.mirrored (flipY x - c.cg) =
      flipY (velWind s + velRot s (x - c.cg)) := by
  unfold velWind velRot FlowState.mirrored freestreamDir deg2rad
  simp only [neg_mul, Real.cos_neg, Real.sin_neg]
  ext <;> simp [hc] <;> ring

theorem MirrorPair.boundary {σ : Equiv.Perm (Fin n)} {k : Fin n → ℝ} {P P' : Fin n → Panel}
    (h : MirrorPair σ k P P') (s : FlowState) {c : Refs} (hc : c.cg.y = 0) (i : Fin n) :
    vlmBoundary s.mirrored c P' (σ i) = k i * vlmBoundary s c P i := by
  unfold vlmBoundary
  rw [h.col, h.normal, onset_mirrored s hc]
  generalize velWind s + velRot s ((P i).col - c.cg) = w
  unfold V3.dot
  simp
  ring

theorem MirrorPair.downwash {σ : Equiv.Perm (Fin n)} {k : Fin n → ℝ} {P P' : Fin n → Panel}
    (h : MirrorPair σ k P P') {eps : ℝ} {A : Matrix (Fin n) (Fin n) ℝ}
    (hA : vlmDownwash eps P = some A) :
    ∃ A', vlmDownwash eps P' = some A' ∧ ∀ i j, A' (σ i) (σ j) = k i * k j * A i j := by
  obtain ⟨h1, h2⟩ := vlmDownwash_some hA
  have hok : ∀ i j, HorseshoeOk eps (P' i).col (P' j) := by
    intro i j
    obtain ⟨i, rfl⟩ := σ.surjective i
    obtain ⟨j, rfl⟩ := σ.surjective j
    rw [h.col, h.ok]
    exact h1 i j
  refine ⟨fun i j => (horseshoe eps (P' i).col (P' j)).dot (P' i).n,
    by unfold vlmDownwash; rw [if_pos hok], ?_⟩
  intro i j
  dsimp only
  rw [h2, h.col, h.normal, h.induced]
  generalize horseshoe eps (P i).col (P j) = w
  unfold V3.dot
  simp
  ring

/-- Circulation of the mirrored lattice. -/
def mirroredGamma (σ : Equiv.Perm (Fin n)) (k g : Fin n → ℝ) : Fin n → ℝ :=
  fun j => k (σ.symm j) * g (σ.symm j)

theorem mirroredGamma_at (σ : Equiv.Perm (Fin n)) (k g : Fin n → ℝ) (i : Fin n) :
    mirroredGamma σ k g (σ i) = k i * g i := by
  unfold mirroredGamma
  rw [Equiv.symm_apply_apply]

theorem det_mirrored {σ : Equiv.Perm (Fin n)} {k : Fin n → ℝ} (hk : ∀ i, k i * k i = 1)
    {A A' : Matrix (Fin n) (Fin n) ℝ} (h : ∀ i j, A' (σ i) (σ j) = k i * k j * A i j) :
    A'.det = A.det := by
  rw [← Matrix.det_submatrix_equiv_self σ A']
  have : A'.submatrix σ σ = Matrix.diagonal k * A * Matrix.diagonal k := by
    ext i j
    rw [Matrix.mul_diagonal, Matrix.diagonal_mul, Matrix.submatrix_apply, h]
    ring
  rw [this, Matrix.det_mul, Matrix.det_mul, Matrix.det_diagonal]
  have : (∏ i, k i) * ∏ i, k i = 1 := by
    rw [← Finset.prod_mul_distrib]
    exact Finset.prod_eq_one fun i _ => hk i
  linear_combination A.det * this

theorem solves_mirrored {σ : Equiv.Perm (Fin n)} {k : Fin n → ℝ} (hk : ∀ i, k i * k i = 1)
    {A A' : Matrix (Fin n) (Fin n) ℝ} (h : ∀ i j, A' (σ i) (σ j) = k i * k j * A i j)
    {b b' g : Fin n → ℝ} (hb : ∀ i, b' (σ i) = k i * b i) (hg : Solves A b g) :
    Solves A' b' (mirroredGamma σ k g) := by
  unfold Solves at hg ⊢
  funext i
  obtain ⟨i, rfl⟩ := σ.surjective i
  rw [hb, ← hg]
  unfold Matrix.mulVec dotProduct
  rw [← Equiv.sum_comp σ, Finset.mul_sum]
  refine Finset.sum_congr rfl fun j _ => ?_
  show A' (σ i) (σ j) * mirroredGamma σ k g (σ j) = k i * (A i j * g j)
  rw [h, mirroredGamma_at]
  linear_combination (k i * A i j * g j) * hk j

/-- Results of the mirrored lattice. -/
theorem MirrorPair.results {σ : Equiv.Perm (Fin n)} {k : Fin n → ℝ} {P P' : Fin n → Panel}
    (h : MirrorPair σ k P P') (s : FlowState) {c : Refs} (hc : c.Symmetric) {eps : ℝ}
    {gamma : Fin n → ℝ} {R : Results n} (hR : vlmResults eps s c P gamma = some R) :
    ∃ R', vlmResults eps s.mirrored c P' (mirroredGamma σ k gamma) = some R' ∧
      R'.ftot = flipY R.ftot ∧ R'.wind = flipY R.wind ∧ R'.mtot = -flipY R.mtot ∧
      R'.coeffs = ⟨R.coeffs.cx, R.coeffs.cy.map (- ·), R.coeffs.cz, R.coeffs.cL, R.coeffs.cD,
        R.coeffs.cC.map (- ·), R.coeffs.cl.map (- ·), R.coeffs.cm, R.coeffs.cn.map (- ·)⟩ := by
  obtain ⟨h1, rfl⟩ := vlmResults_some hR
  have hok : ∀ i j, HorseshoeOk eps (P' i).mid (P' j) := by
    intro i j
    obtain ⟨i, rfl⟩ := σ.surjective i
    obtain ⟨j, rfl⟩ := σ.surjective j
    rw [h.mid, h.ok]
    exact h1 i j
  have hi : ∀ i, inwash eps P' (mirroredGamma σ k gamma) (P' (σ i)).mid =
      flipY (inwash eps P gamma (P i).mid) := by
    intro i
    rw [inwash_eq, inwash_eq, ← Equiv.sum_comp σ, flipY_sum]
    refine Finset.sum_congr rfl fun j _ => ?_
    rw [h.mid, h.induced, mirroredGamma_at]
    have := h.sq j
    generalize horseshoe eps (P i).mid (P j) = w
    ext <;> simp only [smul_x, smul_y, smul_z, flipY_x, flipY_y, flipY_z]
    · linear_combination (gamma j * w.x) * this
    · linear_combination -(gamma j * w.y) * this
    · linear_combination (gamma j * w.z) * this
  have hv : ∀ i, panelVel eps s.mirrored c P' (mirroredGamma σ k gamma) (σ i) =
      flipY (panelVel eps s c P gamma i) := by
    intro i
    unfold panelVel
    rw [hi, h.mid, onset_mirrored s hc.1, ← flipY_sub]
  have hf : ∀ i, panelForce eps s.mirrored c P' (mirroredGamma σ k gamma) (σ i) =
      flipY (panelForce eps s c P gamma i) := by
    intro i
    rw [panelForce_eq, panelForce_eq, hv, h.bound, mirroredGamma_at]
    have := h.sq i
    generalize panelVel eps s c P gamma i = V
    generalize (P i).v3 - (P i).v2 = L
    have hr : s.mirrored.rho = s.rho := rfl
    rw [hr]
    ext
    · simp only [smul_x, cross_x, neg_y, neg_z, smul_y, smul_z, flipY_x, flipY_y, flipY_z]
      linear_combination (s.rho * gamma i * (V.y * L.z - V.z * L.y)) * this
    · simp only [smul_y, cross_y, neg_x, neg_z, smul_x, smul_z, flipY_x, flipY_y, flipY_z]
      linear_combination -(s.rho * gamma i * (V.z * L.x - V.x * L.z)) * this
    · simp only [smul_z, cross_z, neg_y, neg_x, smul_y, smul_x, flipY_x, flipY_y, flipY_z]
      linear_combination (s.rho * gamma i * (V.x * L.y - V.y * L.x)) * this
  have hm : ∀ i, panelMoment eps s.mirrored c P' (mirroredGamma σ k gamma) (σ i) =
      -flipY (panelMoment eps s c P gamma i) := by
    intro i
    unfold panelMoment
    rw [hf, h.mid]
    have : flipY (P i).mid - c.rp = flipY ((P i).mid - c.rp) := by
      rw [← flipY_sub, flipY_of hc.2]
    rw [this, flipY_cross]
  have hF : ∑ i, panelForce eps s.mirrored c P' (mirroredGamma σ k gamma) i =
      flipY (∑ i, panelForce eps s c P gamma i) := by
    rw [flipY_sum, ← Finset.sum_congr rfl fun i _ => hf i]
    exact (Equiv.sum_comp σ _).symm
  have hM : ∑ i, panelMoment eps s.mirrored c P' (mirroredGamma σ k gamma) i =
      -flipY (∑ i, panelMoment eps s c P gamma i) := by
    rw [flipY_sum, ← Finset.sum_neg_distrib, ← Finset.sum_congr rfl fun i _ => hm i]
    exact (Equiv.sum_comp σ _).symm
  have hW : ∀ f, bodyToWind s.mirrored (flipY f) = flipY (bodyToWind s f) := by
    intro f
    unfold bodyToWind FlowState.mirrored deg2rad
    simp only [neg_mul, Real.cos_neg, Real.sin_neg]
    ext <;> simp <;> ring
  have hq : dynPressure s.mirrored = dynPressure s := rfl
  have hneg : ∀ x y : ℝ, cdiv (-x) y = (cdiv x y).map (- ·) := by
    intro x y
    unfold cdiv
    split_ifs
    · rfl
    · rw [Option.map_some, neg_div]
  refine ⟨_, vlmResults_mk hok _ c _, hF, ?_, hM, ?_⟩
  · simp only [sumResults]
    rw [hF, hW]
  · simp only [sumResults]
    rw [hF, hM]
    unfold vlmCoeffs
    simp only [hW, hq, flipY_x, flipY_y, flipY_z, neg_x, neg_y, neg_z, hneg, neg_neg]

end

/-- The analysis of the mirrored flight state. -/
theorem Analysis.Of.mirrored {env : RunEnv} {ac ac' : PAircraft ℝ} (hu : ac.Unpanelled)
    (hp : prePanelling ac = .ok ac') (hn : ac.NumC 0) (hsym : SymmetricAircraft env ac')
    (hc : env.refs.Symmetric) {st st' : FlightSt ℝ} {i : ℕ} (hs : MirroredAt st st' i)
    {a : Analysis} (h : a.Of env ac' st i) :
    ∃ a' : Analysis, a'.Of env ac' st' i ∧ a'.R.ftot = flipY a.R.ftot ∧
      a'.R.wind = flipY a.R.wind ∧ a'.R.mtot = -flipY a.R.mtot ∧
      a'.R.coeffs = ⟨a.R.coeffs.cx, a.R.coeffs.cy.map (- ·), a.R.coeffs.cz, a.R.coeffs.cL,
        a.R.coeffs.cD, a.R.coeffs.cC.map (- ·), a.R.coeffs.cl.map (- ·), a.R.coeffs.cm,
        a.R.coeffs.cn.map (- ·)⟩ := by
  obtain ⟨s, l, P, A, g, R⟩ := a
  obtain ⟨hr, he⟩ := hs
  have hl0 := genLattice_leg h.lattice s.alpha 0
  have hl1 := genLattice_leg h.lattice s.alpha (-s.beta)
  rw [trailLeg_neg] at hl1
  set leg := trailLeg s.alpha s.beta with hleg
  obtain ⟨σ, k, hpair⟩ : ∃ (σ : Equiv.Perm (Fin l.num)) (k : Fin l.num → ℝ),
      MirrorPair σ k P fun i => (P i).withLeg (flipY leg) := by
    obtain ⟨σ, hσ⟩ := symmetric_lattice hu hp hn hsym hl0
      (P := fun k => (P k).withLeg (trailLeg s.alpha 0)) fun k => panel_withLeg (h.panels k)
    have e1 : (fun i => ((P i).withLeg (trailLeg s.alpha 0)).withLeg leg) = P :=
      funext fun i => panel_leg h.lattice (h.panels i)
    have hpair : MirrorPair (n := l.num) σ (fun i => ((P i).withLeg (trailLeg s.alpha 0)).sgn)
        (fun i => ((P i).withLeg (trailLeg s.alpha 0)).withLeg leg)
        (fun i => ((P i).withLeg (trailLeg s.alpha 0)).withLeg (flipY leg)) := hσ.mirrorPair leg
    rw [e1] at hpair
    exact ⟨σ, _, hpair⟩
  obtain ⟨A', a1, a2⟩ := hpair.downwash h.matrix
  obtain ⟨R', r1, r2⟩ := hpair.results s hc h.results
  have hb := hpair.boundary s (c := env.refs) hc.1
  have hdet : A'.det = A.det := det_mirrored hpair.sq a2
  have same : ∀ p x, p ∈ ["airspeed", "density", "alpha", "rate_Q"] →
      st.aero.entry p i = .ok (.fin x) → st'.aero.entry p i = .ok (.fin x) := by
    intro p x hp hx
    have := he p hp x hx
    rwa [one_mul] at this
  have rev : ∀ p x, p ∈ ["beta", "rate_P", "rate_R"] →
      st.aero.entry p i = .ok (.fin x) → st'.aero.entry p i = .ok (.fin (-x)) := by
    intro p x hp hx
    have := hr p hp x hx
    rwa [neg_one_mul] at this
  refine ⟨⟨s.mirrored, l.withLeg (flipY leg), fun k => (P k).withLeg (flipY leg), A',
    mirroredGamma σ k g, R'⟩, ⟨same _ _ (by simp) h.airspeed, same _ _ (by simp) h.density,
      same _ _ (by simp) h.alpha, rev _ _ (by simp) h.beta, rev _ _ (by simp) h.rateP,
      same _ _ (by simp) h.rateQ, rev _ _ (by simp) h.rateR, hl1, h.nonempty,
      fun k => panel_withLeg (h.panels k), a1, ?_, ?_, r1⟩, r2⟩
  · intro hu'
    exact solves_mirrored hpair.sq a2 hb (h.solved (by rw [← hdet]; exact hu'))
  · intro hu'
    have hg : g = vlmBoundary s env.refs P := h.singular (by rw [← hdet]; exact hu')
    show mirroredGamma σ k g = vlmBoundary s.mirrored env.refs fun k => (P k).withLeg (flipY leg)
    funext j
    obtain ⟨j, rfl⟩ := σ.surjective j
    rw [mirroredGamma_at, hb, hg]

/-- A number that may be not finite, with the opposite sign. -/
def Flt.neg : Flt ℝ → Flt ℝ
  | .fin x => .fin (-x)
  | .nonfin => .nonfin

/-- **C96**: for a symmetric aircraft, the run over the mirror images of flight states finishes if
that over the flight states does; longitudinal forces, moments and coefficients are the same and the
lateral ones have the opposite sign.  Missing: twisted cambered wings, see C74. -/
theorem C96_mirrored_states_partial (env : RunEnv) (hd : Lapack env.dgesv) (ac : PAircraft ℝ)
    (hu : ac.Unpanelled) (hn : ac.GivenNumC env.autoC)
    (hs : ∀ ac', Panelled env ac ac' → SymmetricAircraft env ac') (hc : env.refs.Symmetric)
    (st st' : FlightSt ℝ) (hnum : st'.num = st.num) (hm : ∀ i < st.num, MirroredAt st st' i)
    (out : RunOut) (h : standardRun env ac st = .ok out) :
    ∃ out', standardRun env ac st' = .ok out' ∧ ∀ i < st.num,
      (∀ c ∈ ["Fx", "Fz", "FD", "FL", "My", "Cx", "Cz", "CD", "CL", "Cm"],
        ∃ x, out.value c i = some x ∧ out'.value c i = some x) ∧
      ∀ c ∈ ["Fy", "FC", "Mx", "Mz", "Cy", "CC", "Cl", "Cn"],
        ∃ x, out.value c i = some x ∧ out'.value c i = some x.neg := by
  obtain ⟨out', h', hv⟩ := run_transfer hd hd (ac2 := ac) (st' := st') hnum
    (fun i a a' => a'.R.ftot = flipY a.R.ftot ∧
      a'.R.wind = flipY a.R.wind ∧ a'.R.mtot = -flipY a.R.mtot ∧
      a'.R.coeffs = ⟨a.R.coeffs.cx, a.R.coeffs.cy.map (- ·), a.R.coeffs.cz, a.R.coeffs.cL,
        a.R.coeffs.cD, a.R.coeffs.cC.map (- ·), a.R.coeffs.cl.map (- ·), a.R.coeffs.cm,
        a.R.coeffs.cn.map (- ·)⟩)
    (fun ac' hac => ⟨ac', hac, fun i hi a ha => by
      obtain ⟨ac1, b1, b2⟩ := id hac
      obtain ⟨u1, u2⟩ := autopanels_facts hu hn b1
      exact ha.mirrored u1 b2 u2 (hs ac' hac) hc (hm i hi)⟩) h
  refine ⟨out', h', ?_⟩
  intro i hi
  obtain ⟨ac', a, a', -, -, ⟨r1, r2, r3, r4⟩, v1, v2⟩ := hv i hi
  have hneg : ∀ o : Option ℝ, asFlt (o.map (- ·)) = (asFlt o).neg := by
    intro o
    cases o <;> rfl
  constructor
  · intro c hc
    have key : ∀ d : String × (Analysis → Flt ℝ), d ∈ runColumns → d.2 a' = d.2 a →
        ∃ x, out.value d.1 i = some x ∧ out'.value d.1 i = some x := by
      intro d hd h1
      exact ⟨d.2 a, v1 d hd, by rw [v2 d hd, h1]⟩
    simp only [List.mem_cons, List.not_mem_nil, or_false] at hc
    rcases hc with rfl | rfl | rfl | rfl | rfl | rfl | rfl | rfl | rfl | rfl
    · exact key ("Fx", fun a => .fin a.R.ftot.x) (by simp [runColumns]) (by simp [r1])
    · exact key ("Fz", fun a => .fin a.R.ftot.z) (by simp [runColumns]) (by simp [r1])
    · exact key ("FD", fun a => .fin a.R.wind.x) (by simp [runColumns]) (by simp [r2])
    · exact key ("FL", fun a => .fin a.R.wind.z) (by simp [runColumns]) (by simp [r2])
    · exact key ("My", fun a => .fin a.R.mtot.y) (by simp [runColumns]) (by simp [r3])
    · exact key ("Cx", fun a => asFlt a.R.coeffs.cx) (by simp [runColumns]) (by simp [r4])
    · exact key ("Cz", fun a => asFlt a.R.coeffs.cz) (by simp [runColumns]) (by simp [r4])
    · exact key ("CD", fun a => asFlt a.R.coeffs.cD) (by simp [runColumns]) (by simp [r4])
    · exact key ("CL", fun a => asFlt a.R.coeffs.cL) (by simp [runColumns]) (by simp [r4])
    · exact key ("Cm", fun a => asFlt a.R.coeffs.cm) (by simp [runColumns]) (by simp [r4])
  · intro c hc
    have key : ∀ d : String × (Analysis → Flt ℝ), d ∈ runColumns → d.2 a' = (d.2 a).neg →
        ∃ x, out.value d.1 i = some x ∧ out'.value d.1 i = some x.neg := by
      intro d hd h1
      exact ⟨d.2 a, v1 d hd, by rw [v2 d hd, h1]⟩
    simp only [List.mem_cons, List.not_mem_nil, or_false] at hc
    rcases hc with rfl | rfl | rfl | rfl | rfl | rfl | rfl | rfl
    · exact key ("Fy", fun a => .fin a.R.ftot.y) (by simp [runColumns]) (by simp [r1, Flt.neg])
    · exact key ("FC", fun a => .fin a.R.wind.y) (by simp [runColumns]) (by simp [r2, Flt.neg])
    · exact key ("Mx", fun a => .fin a.R.mtot.x) (by simp [runColumns]) (by simp [r3, Flt.neg])
    · exact key ("Mz", fun a => .fin a.R.mtot.z) (by simp [runColumns]) (by simp [r3, Flt.neg])
    · exact key ("Cy", fun a => asFlt a.R.coeffs.cy) (by simp [runColumns]) (by simp only [r4, hneg])
    · exact key ("CC", fun a => asFlt a.R.coeffs.cC) (by simp [runColumns]) (by simp only [r4, hneg])
    · exact key ("Cl", fun a => asFlt a.R.coeffs.cl) (by simp [runColumns]) (by simp only [r4, hneg])
    · exact key ("Cn", fun a => asFlt a.R.coeffs.cn) (by simp [runColumns]) (by simp only [r4, hneg])

/-! ## Example -/

/-- A state at 10 m/s and 5 degree, rolling at rate `x`. -/
noncomputable def rollState (x : ℝ) : FlightSt ℝ :=
  ⟨fun p => if p = "airspeed" then some [.num (.fin 10)]
    else if p = "alpha" then some [.num (.fin 5)]
    else if p = "density" then some [.num (.fin 1)]
    else if p = "rate_P" then some [.num (.fin x)]
    else some [.num (.fin 0)], 1⟩

theorem roll_run (x : ℝ) : ∃ out, standardRun exampleEnv onePanelAc (rollState x) = .ok out := by
  have hp : Panelled exampleEnv onePanelAc onePanelAc :=
    ⟨onePanelAc, plain_autopanels, plainAc_panelled⟩
  obtain ⟨ps, fs, h1, h2⟩ := Passes.build (env := exampleEnv) (ac := onePanelAc)
    (st := rollState x) (k := 1) (i := 0) (by
      intro j hj
      obtain rfl : j = 0 := by omega
      obtain ⟨l, v, hv⟩ := plain_analyse ⟨10, 1, 5, 0, x, 0, 0⟩ rfl
      have : Pass.Of exampleEnv onePanelAc (rollState x) (0 + 0) ⟨_, ⟨10, 1, 5, 0, x, 0, 0⟩, l, v⟩ :=
        ⟨rfl, rfl, hv⟩
      obtain ⟨gs, hg⟩ := saveAll_total (env := exampleEnv) exactDgesv_lapack this
      exact ⟨_, gs, this, hg⟩)
  exact standardRun_build hp h1 h2 (by simp [rollState])

/-- Example for C96: rolling in the opposite direction, the rolling moment has the opposite sign. -/
example : ∃ out out' x, standardRun exampleEnv onePanelAc (rollState 1) = .ok out ∧
    standardRun exampleEnv onePanelAc (rollState (-1)) = .ok out' ∧
    out.value "Mx" 0 = some x ∧ out'.value "Mx" 0 = some x.neg := by
  obtain ⟨out, h⟩ := roll_run 1
  obtain ⟨hu, hn⟩ := plainAc_ok
  have key : ∀ (k : ℝ) (p : String) (x : ℝ), (rollState 1).aero.entry p 0 = .ok (.fin x) →
      ∀ y, (rollState (-1)).aero.entry p 0 = .ok (.fin y) → y = k * x →
      EntryTimes k (rollState 1) (rollState (-1)) p 0 := by
    intro k p x h1 y h2 h3 z hz
    rw [h1] at hz
    cases hz
    rw [h2, h3]
  obtain ⟨out', h', hv⟩ := C96_mirrored_states_partial exampleEnv exactDgesv_lapack onePanelAc hu
    ⟨by decide, by
      intro w hw
      simp only [onePanelAc, List.mem_singleton] at hw
      subst hw
      refine ⟨?_, by simp⟩
      intro s hs n hsn
      simp only [List.mem_singleton] at hs
      subst hs
      cases hsn
      norm_num⟩ (by
      rintro ac' ⟨ac1, p1, p2⟩ t ht
      have p1' : setAutopanels 5 5 onePanelAc = .ok ac1 := p1
      rw [plain_autopanels] at p1'
      cases p1'
      rw [plainAc_panelled] at p2
      cases p2
      rw [plain_subareas, List.mem_singleton] at ht
      subst ht
      refine ⟨.inl ⟨rfl, rfl, ?_, fun c hc => by cases hc⟩, fun _ => .inl fun _ _ => rfl⟩
      intro p
      simp [exampleEnv, flatLat, flatGeo, displaced])
    ⟨rfl, rfl⟩ (rollState 1) (rollState (-1)) rfl (by
      intro i hi
      obtain rfl : i = 0 := by simpa [rollState] using hi
      constructor
      · intro p hp
        simp only [List.mem_cons, List.not_mem_nil, or_false] at hp
        rcases hp with rfl | rfl | rfl
        exacts [key _ _ 0 rfl 0 rfl (by norm_num), key _ _ 1 rfl (-1) rfl (by norm_num),
          key _ _ 0 rfl 0 rfl (by norm_num)]
      · intro p hp
        simp only [List.mem_cons, List.not_mem_nil, or_false] at hp
        rcases hp with rfl | rfl | rfl | rfl
        exacts [key _ _ 10 rfl 10 rfl (by norm_num), key _ _ 1 rfl 1 rfl (by norm_num),
          key _ _ 5 rfl 5 rfl (by norm_num), key _ _ 0 rfl 0 rfl (by norm_num)]) out h
  obtain ⟨x, x1, x2⟩ := (hv 0 (by simp [rollState])).2 "Mx" (by simp)
  exact ⟨out, out', x, h, h', x1, x2⟩

end Verif
