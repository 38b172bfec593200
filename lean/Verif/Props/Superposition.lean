import Verif.Props.RunInvariance

/-!
# Property C123: superposition of motions

At fixed angles the circulations depend linearly, forces and moments quadratically, on airspeed and
rates.
-/

set_option linter.unnecessarySeqFocus false

namespace Verif

open V3

/-! ## Specification -/

/-- Airspeed and rates of a flight state. -/
def motion (v p q r : ℝ) : Fin 4 → ℝ := ![v, p, q, r]

/-- Flight state `i` has these angles, this density and this motion. -/
structure StateIs (st : FlightSt ℝ) (i : ℕ) (alpha beta rho : ℝ) (x : Fin 4 → ℝ) : Prop where
  alpha : st.aero.entry "alpha" i = .ok (.fin alpha)
  beta : st.aero.entry "beta" i = .ok (.fin beta)
  density : st.aero.entry "density" i = .ok (.fin rho)
  airspeed : st.aero.entry "airspeed" i = .ok (.fin (x 0))
  rateP : st.aero.entry "rate_P" i = .ok (.fin (x 1))
  rateQ : st.aero.entry "rate_Q" i = .ok (.fin (x 2))
  rateR : st.aero.entry "rate_R" i = .ok (.fin (x 3))

/-- A quadratic form in airspeed and rates. -/
def quadForm (Q : Fin 4 → Fin 4 → ℝ) (x : Fin 4 → ℝ) : ℝ := ∑ j, ∑ k, Q j k * (x j * x k)

/-! ## Proofs -/

/-- The state of flow for given angles, density and motion. -/
def flowOf (alpha beta rho : ℝ) (x : Fin 4 → ℝ) : FlowState :=
  ⟨x 0, rho, alpha, beta, x 1, x 2, x 3⟩

/-- Motion number `j` alone, with speed one. -/
def unitMotion (j : Fin 4) : Fin 4 → ℝ := fun k => if k = j then 1 else 0

theorem StateIs.unique {st : FlightSt ℝ} {i : ℕ} {alpha beta rho : ℝ} {x : Fin 4 → ℝ}
    (h : StateIs st i alpha beta rho x) {env : RunEnv} {ac : PAircraft ℝ} {a : Analysis}
    (ha : a.Of env ac st i) : a.s = flowOf alpha beta rho x := by
  have e1 := h.alpha.symm.trans ha.alpha
  have e2 := h.beta.symm.trans ha.beta
  have e3 := h.density.symm.trans ha.density
  have e4 := h.airspeed.symm.trans ha.airspeed
  have e5 := h.rateP.symm.trans ha.rateP
  have e6 := h.rateQ.symm.trans ha.rateQ
  have e7 := h.rateR.symm.trans ha.rateR
  simp only [Except.ok.injEq, Flt.fin.injEq] at e1 e2 e3 e4 e5 e6 e7
  unfold flowOf
  rw [e1, e2, e3, e4, e5, e6, e7]

theorem onset_motion (alpha beta rho : ℝ) (x : Fin 4 → ℝ) (arm : V3 ℝ) :
    velWind (flowOf alpha beta rho x) + velRot (flowOf alpha beta rho x) arm =
      ∑ j, x j • (velWind (flowOf alpha beta 1 (unitMotion j)) +
        velRot (flowOf alpha beta 1 (unitMotion j)) arm) := by
  rw [Fin.sum_univ_four]
  unfold velWind velRot flowOf unitMotion
  simp only [show ((0 : Fin 4) = 1) = False by decide, show ((0 : Fin 4) = 2) = False by decide,
    show ((0 : Fin 4) = 3) = False by decide, show ((1 : Fin 4) = 0) = False by decide,
    show ((1 : Fin 4) = 2) = False by decide, show ((1 : Fin 4) = 3) = False by decide,
    show ((2 : Fin 4) = 0) = False by decide, show ((2 : Fin 4) = 1) = False by decide,
    show ((2 : Fin 4) = 3) = False by decide, show ((3 : Fin 4) = 0) = False by decide,
    show ((3 : Fin 4) = 1) = False by decide, show ((3 : Fin 4) = 2) = False by decide,
    if_true, if_false]
  generalize freestreamDir _ _ = u
  ext <;> simp <;> ring

section
variable {n : ℕ}

theorem boundary_motion (alpha beta rho : ℝ) (x : Fin 4 → ℝ) (c : Refs) (P : Fin n → Panel) :
    vlmBoundary (flowOf alpha beta rho x) c P =
      ∑ j, x j • vlmBoundary (flowOf alpha beta 1 (unitMotion j)) c P := by
  funext i
  rw [Finset.sum_apply]
  unfold vlmBoundary
  rw [onset_motion, dot_sum]
  refine Finset.sum_congr rfl fun j _ => ?_
  rw [dot_smul_left]
  rfl

/-- Circulations of the four unit motions. -/
noncomputable def unitGamma (alpha beta : ℝ) (c : Refs) (P : Fin n → Panel)
    (A : Matrix (Fin n) (Fin n) ℝ) (j : Fin 4) : Fin n → ℝ :=
  open Classical in
  if IsUnit A.det then A⁻¹.mulVec (vlmBoundary (flowOf alpha beta 1 (unitMotion j)) c P)
  else vlmBoundary (flowOf alpha beta 1 (unitMotion j)) c P

theorem gamma_motion {alpha beta rho : ℝ} {x : Fin 4 → ℝ} {c : Refs} {P : Fin n → Panel}
    {A : Matrix (Fin n) (Fin n) ℝ} {g : Fin n → ℝ}
    (h1 : IsUnit A.det → Solves A (vlmBoundary (flowOf alpha beta rho x) c P) g)
    (h2 : ¬ IsUnit A.det → g = vlmBoundary (flowOf alpha beta rho x) c P) :
    g = ∑ j, x j • unitGamma alpha beta c P A j := by
  unfold unitGamma
  by_cases hu : IsUnit A.det
  · simp only [if_pos hu]
    have h := h1 hu
    unfold Solves at h
    have e : g = A⁻¹.mulVec (A.mulVec g) := by
      rw [Matrix.mulVec_mulVec, Matrix.nonsing_inv_mul _ hu, Matrix.one_mulVec]
    rw [e, h, boundary_motion, Matrix.mulVec_sum]
    exact Finset.sum_congr rfl fun j _ => Matrix.mulVec_smul _ _ _
  · simp only [if_neg hu]
    rw [h2 hu, boundary_motion]

theorem velocity_motion (eps alpha beta rho : ℝ) (x : Fin 4 → ℝ) (c : Refs) (P : Fin n → Panel)
    (G : Fin 4 → Fin n → ℝ) (i : Fin n) :
    panelVel eps (flowOf alpha beta rho x) c P (∑ j, x j • G j) i =
      ∑ j, x j • panelVel eps (flowOf alpha beta 1 (unitMotion j)) c P (G j) i := by
  unfold panelVel
  rw [onset_motion, inwash_eq]
  have h : ∑ k, (∑ j, x j • G j) k • horseshoe eps (P i).mid (P k) =
      ∑ j, x j • inwash eps P (G j) (P i).mid := by
    simp only [inwash_eq, smul_sum']
    rw [Finset.sum_comm]
    refine Finset.sum_congr rfl fun k _ => ?_
    generalize horseshoe eps (P i).mid (P k) = w
    rw [Fin.sum_univ_four, Fin.sum_univ_four]
    ext <;> simp <;> ring
  rw [h, ← Finset.sum_sub_distrib]
  refine Finset.sum_congr rfl fun j _ => ?_
  generalize inwash eps P (G j) (P i).mid = u
  generalize velWind (flowOf alpha beta 1 (unitMotion j)) + _ = w
  ext <;> simp <;> ring

/-- Force of one motion on the circulation of another. -/
noncomputable def pairForce (eps alpha beta : ℝ) (c : Refs) (P : Fin n → Panel)
    (G : Fin 4 → Fin n → ℝ) (i : Fin n) (j k : Fin 4) : V3 ℝ :=
  G j i • (panelVel eps (flowOf alpha beta 1 (unitMotion k)) c P (G k) i).cross
    ((P i).v3 - (P i).v2)

/-- A quadratic form whose values are vectors. -/
noncomputable def quadVec (Q : Fin 4 → Fin 4 → V3 ℝ) (x : Fin 4 → ℝ) : V3 ℝ :=
  ∑ j, ∑ k, (x j * x k) • Q j k

theorem force_motion (eps alpha beta rho : ℝ) (x : Fin 4 → ℝ) (c : Refs) (P : Fin n → Panel)
    (G : Fin 4 → Fin n → ℝ) (i : Fin n) :
    panelForce eps (flowOf alpha beta rho x) c P (∑ j, x j • G j) i =
      rho • quadVec (pairForce eps alpha beta c P G i) x := by
  rw [panelForce_eq, velocity_motion]
  unfold quadVec pairForce
  show (rho * _) • _ = _
  simp only [Fin.sum_univ_four]
  generalize panelVel eps (flowOf alpha beta 1 (unitMotion 0)) c P (G 0) i = v0
  generalize panelVel eps (flowOf alpha beta 1 (unitMotion 1)) c P (G 1) i = v1
  generalize panelVel eps (flowOf alpha beta 1 (unitMotion 2)) c P (G 2) i = v2
  generalize panelVel eps (flowOf alpha beta 1 (unitMotion 3)) c P (G 3) i = v3
  generalize (P i).v3 - (P i).v2 = b
  simp only [Pi.add_apply, Pi.smul_apply, smul_eq_mul]
  ext <;> simp <;> ring

theorem quadVec_sum {ι : Type*} (S : Finset ι) (Q : ι → Fin 4 → Fin 4 → V3 ℝ) (x : Fin 4 → ℝ) :
    ∑ i ∈ S, quadVec (Q i) x = quadVec (fun j k => ∑ i ∈ S, Q i j k) x := by
  unfold quadVec
  rw [Finset.sum_comm]
  refine Finset.sum_congr rfl fun j _ => ?_
  rw [Finset.sum_comm]
  refine Finset.sum_congr rfl fun k _ => ?_
  rw [smul_sum']

/-- Quadratic forms of total force and total moment. -/
theorem results_motion {eps alpha beta rho : ℝ} {x : Fin 4 → ℝ} {c : Refs} {P : Fin n → Panel}
    {G : Fin 4 → Fin n → ℝ} {R : Results n}
    (h : vlmResults eps (flowOf alpha beta rho x) c P (∑ j, x j • G j) = some R) :
    R.ftot = rho • quadVec (fun j k => ∑ i, pairForce eps alpha beta c P G i j k) x ∧
    R.mtot = rho • quadVec (fun j k => ∑ i, ((P i).mid - c.rp).cross
      (pairForce eps alpha beta c P G i j k)) x ∧
    R.wind = bodyToWind (flowOf alpha beta rho x) R.ftot := by
  obtain ⟨-, rfl⟩ := vlmResults_some h
  refine ⟨?_, ?_, rfl⟩
  · simp only [sumResults]
    rw [← quadVec_sum, smul_sum']
    exact Finset.sum_congr rfl fun i _ => force_motion eps alpha beta rho x c P G i
  · simp only [sumResults]
    rw [← quadVec_sum, smul_sum']
    refine Finset.sum_congr rfl fun i _ => ?_
    unfold panelMoment
    rw [force_motion]
    unfold quadVec
    simp only [Fin.sum_univ_four]
    generalize (P i).mid - c.rp = b
    ext <;> simp <;> ring

theorem quadVec_x (rho : ℝ) (Q : Fin 4 → Fin 4 → V3 ℝ) (x : Fin 4 → ℝ) :
    (rho • quadVec Q x).x = rho * quadForm (fun j k => (Q j k).x) x := by
  unfold quadVec quadForm
  simp only [smul_x, sum_x, mul_comm (x _ * x _)]

theorem quadVec_y (rho : ℝ) (Q : Fin 4 → Fin 4 → V3 ℝ) (x : Fin 4 → ℝ) :
    (rho • quadVec Q x).y = rho * quadForm (fun j k => (Q j k).y) x := by
  unfold quadVec quadForm
  simp only [smul_y, sum_y, mul_comm (x _ * x _)]

theorem quadVec_z (rho : ℝ) (Q : Fin 4 → Fin 4 → V3 ℝ) (x : Fin 4 → ℝ) :
    (rho • quadVec Q x).z = rho * quadForm (fun j k => (Q j k).z) x := by
  unfold quadVec quadForm
  simp only [smul_z, sum_z, mul_comm (x _ * x _)]

theorem bodyToWind_quad (alpha beta rho : ℝ) (x : Fin 4 → ℝ) (Q : Fin 4 → Fin 4 → V3 ℝ) :
    bodyToWind (flowOf alpha beta rho x) (rho • quadVec Q x) =
      rho • quadVec (fun j k => bodyToWind (flowOf alpha beta 1 0) (Q j k)) x := by
  unfold quadVec bodyToWind flowOf
  simp only [Fin.sum_univ_four]
  ext <;> simp <;> ring

end

/-- Two analyses at the same angles have the same lattice, panels and matrix. -/
theorem Analysis.Of.same_lattice {env : RunEnv} {ac : PAircraft ℝ} {st st' : FlightSt ℝ} {i i' : ℕ}
    {a a' : Analysis} (h : a.Of env ac st i) (h' : a'.Of env ac st' i')
    (e1 : a'.s.alpha = a.s.alpha) (e2 : a'.s.beta = a.s.beta) :
    ∃ g R, a' = ⟨a'.s, a.l, a.P, a.A, g, R⟩ := by
  obtain ⟨s, l, P, A, g, R⟩ := a
  obtain ⟨s', l', P', A', g', R'⟩ := a'
  simp only at e1 e2
  have hl : genLattice env.lat env.doRot s.alpha s.beta ac = .ok l' := by
    rw [← e1, ← e2]
    exact h'.lattice
  have hl2 := h.lattice.symm.trans hl
  simp only [Except.ok.injEq] at hl2
  subst hl2
  have hP : P = P' := funext fun k => Option.some.inj ((h.panels k).symm.trans (h'.panels k))
  subst hP
  have hA : A = A' := Option.some.inj (h.matrix.symm.trans h'.matrix)
  subst hA
  exact ⟨g', R', rfl⟩

/-- **C123**, circulations: for an aircraft at given angles there are four vectors of circulations,
one for airspeed and one for each rate, such that the circulations of every flight state at these
angles are their sum weighted by airspeed and rates — also if the system is singular. -/
theorem C123_circulations (env : RunEnv) (ac : PAircraft ℝ) (alpha beta : ℝ) :
    ∃ (n : ℕ) (G : Fin 4 → Fin n → ℝ), ∀ (st : FlightSt ℝ) (i : ℕ) (rho : ℝ) (x : Fin 4 → ℝ)
      (a : Analysis), StateIs st i alpha beta rho x → a.Of env ac st i →
      List.ofFn a.g = List.ofFn fun k => ∑ j, x j * G j k := by
  by_cases h : ∃ (st : FlightSt ℝ) (i : ℕ) (rho : ℝ) (x : Fin 4 → ℝ) (a : Analysis),
      StateIs st i alpha beta rho x ∧ a.Of env ac st i
  · obtain ⟨st, i, rho, x, a, hs, ha⟩ := h
    refine ⟨a.l.num, unitGamma alpha beta env.refs a.P a.A, ?_⟩
    intro st' i' rho' x' a' hs' ha'
    have e := hs.unique ha
    have e' := hs'.unique ha'
    obtain ⟨g, R, hg⟩ := ha.same_lattice ha' (by rw [e, e']; rfl) (by rw [e, e']; rfl)
    rw [hg, e'] at ha'
    have key := gamma_motion ha'.solved ha'.singular
    rw [hg]
    simp only at key ⊢
    rw [key]
    congr 1
  · exact ⟨0, fun _ k => k.elim0, fun st i rho x a hs ha => absurd ⟨st, i, rho, x, a, hs, ha⟩ h⟩

/-- **C123**, loads: for an aircraft at given angles each force and moment of every run is the
density times a fixed quadratic form of airspeed and rates. -/
theorem C123_loads (env : RunEnv) (hd : Lapack env.dgesv) (ac : PAircraft ℝ) (alpha beta : ℝ) :
    ∃ Q : String → Fin 4 → Fin 4 → ℝ, ∀ (st : FlightSt ℝ) (out : RunOut),
      standardRun env ac st = .ok out → ∀ i < st.num, ∀ (rho : ℝ) (x : Fin 4 → ℝ),
        StateIs st i alpha beta rho x → ∀ c ∈ loadNames,
          out.value c i = some (.fin (rho * quadForm (Q c) x)) := by
  by_cases h : ∃ (ac' : PAircraft ℝ) (st : FlightSt ℝ) (i : ℕ) (rho : ℝ) (x : Fin 4 → ℝ)
      (a : Analysis), Panelled env ac ac' ∧ StateIs st i alpha beta rho x ∧ a.Of env ac' st i
  · obtain ⟨ac', st, i, rho, x, a, hp, hs, ha⟩ := h
    set G := unitGamma alpha beta env.refs a.P a.A with hG
    let F : Fin 4 → Fin 4 → V3 ℝ := fun j k =>
      ∑ i, pairForce env.eps alpha beta env.refs a.P G i j k
    let M : Fin 4 → Fin 4 → V3 ℝ := fun j k =>
      ∑ i, ((a.P i).mid - env.refs.rp).cross (pairForce env.eps alpha beta env.refs a.P G i j k)
    let W : Fin 4 → Fin 4 → V3 ℝ := fun j k => bodyToWind (flowOf alpha beta 1 0) (F j k)
    refine ⟨fun c j k => if c = "Fx" then (F j k).x else if c = "Fy" then (F j k).y
      else if c = "Fz" then (F j k).z else if c = "FD" then (W j k).x else if c = "FC" then (W j k).y
      else if c = "FL" then (W j k).z else if c = "Mx" then (M j k).x else if c = "My" then (M j k).y
      else (M j k).z, ?_⟩
    intro st' out h' i' hi' rho' x' hs'
    obtain ⟨h0, ac'', h1, h2⟩ := (C93_finishes_iff env hd ac st').1 ⟨out, h'⟩
    obtain rfl := hp.unique h1
    obtain ⟨a', ha'⟩ := h2 i' hi'
    have hv := C93_values env hd ac ac' st' out h' h1 i' hi' a' ha'
    have e := hs.unique ha
    have e' := hs'.unique ha'
    obtain ⟨g, R, hg⟩ := ha.same_lattice ha' (by rw [e, e']; rfl) (by rw [e, e']; rfl)
    rw [hg, e'] at ha' hv
    have key := gamma_motion ha'.solved ha'.singular
    have hR := ha'.results
    simp only at key hR
    rw [key] at hR
    obtain ⟨r1, r2, r3⟩ := results_motion hR
    rw [r1, bodyToWind_quad] at r3
    have get : ∀ (d : String × (Analysis → Flt ℝ)) (y : ℝ), d ∈ runColumns →
        d.2 ⟨flowOf alpha beta rho' x', a.l, a.P, a.A, g, R⟩ = .fin y →
        out.value d.1 i' = some (.fin y) := by
      intro d y hd h1
      rw [hv d hd, h1]
    intro c hc
    simp only [loadNames, List.mem_cons, List.not_mem_nil, or_false] at hc
    rcases hc with rfl | rfl | rfl | rfl | rfl | rfl | rfl | rfl | rfl
    · exact get ("Fx", fun a => .fin a.R.ftot.x) _ (by simp [runColumns])
        (by simp only [r1, quadVec_x]; rfl)
    · exact get ("Fy", fun a => .fin a.R.ftot.y) _ (by simp [runColumns])
        (by simp only [r1, quadVec_y]; rfl)
    · exact get ("Fz", fun a => .fin a.R.ftot.z) _ (by simp [runColumns])
        (by simp only [r1, quadVec_z]; rfl)
    · exact get ("FD", fun a => .fin a.R.wind.x) _ (by simp [runColumns])
        (by simp only [r3, quadVec_x]; rfl)
    · exact get ("FC", fun a => .fin a.R.wind.y) _ (by simp [runColumns])
        (by simp only [r3, quadVec_y]; rfl)
    · exact get ("FL", fun a => .fin a.R.wind.z) _ (by simp [runColumns])
        (by simp only [r3, quadVec_z]; rfl)
    · exact get ("Mx", fun a => .fin a.R.mtot.x) _ (by simp [runColumns])
        (by simp only [r2, quadVec_x]; rfl)
    · exact get ("My", fun a => .fin a.R.mtot.y) _ (by simp [runColumns])
        (by simp only [r2, quadVec_y]; rfl)
    · exact get ("Mz", fun a => .fin a.R.mtot.z) _ (by simp [runColumns])
        (by simp only [r2, quadVec_z]; rfl)
  · refine ⟨fun _ _ _ => 0, ?_⟩
    intro st out h' i hi rho x hs
    obtain ⟨-, ac', h1, h2⟩ := (C93_finishes_iff env hd ac st).1 ⟨out, h'⟩
    obtain ⟨a, ha⟩ := h2 i hi
    exact absurd ⟨ac', st, i, rho, x, a, h1, hs, ha⟩ h

/-- **C123**, finishing: whether a run finishes does not depend on airspeeds, densities and rates. -/
theorem C123_finishes (env : RunEnv) (hd : Lapack env.dgesv) (ac : PAircraft ℝ)
    (st st' : FlightSt ℝ) (hn : st'.num = st.num) (alpha beta rho rho' : ℕ → ℝ)
    (x x' : ℕ → Fin 4 → ℝ) (hs : ∀ i < st.num, StateIs st i (alpha i) (beta i) (rho i) (x i))
    (hs' : ∀ i < st.num, StateIs st' i (alpha i) (beta i) (rho' i) (x' i)) :
    (∃ out, standardRun env ac st = .ok out) ↔ ∃ out, standardRun env ac st' = .ok out := by
  have key : ∀ (st st' : FlightSt ℝ) (rho rho' : ℕ → ℝ) (x x' : ℕ → Fin 4 → ℝ),
      st'.num = st.num → (∀ i < st.num, StateIs st i (alpha i) (beta i) (rho i) (x i)) →
      (∀ i < st.num, StateIs st' i (alpha i) (beta i) (rho' i) (x' i)) →
      (∃ out, standardRun env ac st = .ok out) → ∃ out, standardRun env ac st' = .ok out := by
    rintro st st' rho rho' x x' hn hs hs' ⟨out, h⟩
    obtain ⟨out', h', -⟩ := run_transfer hd hd (ac2 := ac) (st' := st') hn (fun _ _ _ => True)
      (fun ac' hac => ⟨ac', hac, fun i hi a ha => by
        have e := (hs i hi).unique ha
        obtain ⟨s, l, P, A, g, R⟩ := a
        simp only at e
        subst e
        have hok : ∀ i j, HorseshoeOk env.eps (P i).mid (P j) := (vlmResults_some ha.results).1
        have t := hs' i hi
        let b := vlmBoundary (flowOf (alpha i) (beta i) (rho' i) (x' i)) env.refs P
        obtain ⟨g1, g2, -⟩ := gammaOf_lapack hd A b
        exact ⟨⟨flowOf (alpha i) (beta i) (rho' i) (x' i), l, P, A, gammaOf env A b,
          sumResults env.eps (flowOf (alpha i) (beta i) (rho' i) (x' i)) env.refs P (gammaOf env A b)⟩,
          ⟨t.airspeed, t.density, t.alpha, t.beta, t.rateP, t.rateQ, t.rateR, ha.lattice,
            ha.nonempty, ha.panels, ha.matrix, g1, g2, vlmResults_mk hok _ _ _⟩, trivial⟩⟩) h
    exact ⟨out', h'⟩
  refine ⟨key st st' rho rho' x x' hn hs hs', key st' st rho' rho x' x hn.symm ?_ ?_⟩
  · intro i hi
    exact hs' i (by omega)
  · intro i hi
    exact hs i (by omega)

theorem quadForm_parallelogram (Q : Fin 4 → Fin 4 → ℝ) (x y : Fin 4 → ℝ) :
    quadForm Q (x + y) + quadForm Q (x - y) = 2 * quadForm Q x + 2 * quadForm Q y := by
  unfold quadForm
  simp only [Fin.sum_univ_four, Pi.add_apply, Pi.sub_apply]
  ring

/-- **C123**, combined motions: for four flight states of a run with the same angles and the same
density, of which the third has the sum and the fourth the difference of the motions of the first
two, every force and every moment of the third and fourth add up to twice those of the first two. -/
theorem C123_combined (env : RunEnv) (hd : Lapack env.dgesv) (ac : PAircraft ℝ) (st : FlightSt ℝ)
    (out : RunOut) (h : standardRun env ac st = .ok out) (alpha beta rho : ℝ) (x y : Fin 4 → ℝ)
    (i1 i2 i3 i4 : ℕ) (b1 : i1 < st.num) (b2 : i2 < st.num) (b3 : i3 < st.num) (b4 : i4 < st.num)
    (h1 : StateIs st i1 alpha beta rho x) (h2 : StateIs st i2 alpha beta rho y)
    (h3 : StateIs st i3 alpha beta rho (x + y)) (h4 : StateIs st i4 alpha beta rho (x - y)) :
    ∀ c ∈ loadNames, ∃ f1 f2 f3 f4 : ℝ, out.value c i1 = some (.fin f1) ∧
      out.value c i2 = some (.fin f2) ∧ out.value c i3 = some (.fin f3) ∧
      out.value c i4 = some (.fin f4) ∧ f3 + f4 = 2 * f1 + 2 * f2 := by
  obtain ⟨Q, hQ⟩ := C123_loads env hd ac alpha beta
  intro c hc
  refine ⟨_, _, _, _, hQ st out h i1 b1 _ _ h1 c hc, hQ st out h i2 b2 _ _ h2 c hc,
    hQ st out h i3 b3 _ _ h3 c hc, hQ st out h i4 b4 _ _ h4 c hc, ?_⟩
  linear_combination rho * quadForm_parallelogram (Q c) x y

/-! ## Examples -/

/-- Four states at the angles of the second one of `runStates`: flight at 20 m/s, rolling on the spot,
both together, and flight while rolling the other way. -/
noncomputable def rollStates : FlightSt ℝ :=
  ⟨fun p => if p = "airspeed" then
      some [.num (.fin 20), .num (.fin 0), .num (.fin 20), .num (.fin 20)]
    else if p = "alpha" then some [.num (.fin 5), .num (.fin 5), .num (.fin 5), .num (.fin 5)]
    else if p = "density" then some [.num (.fin 1), .num (.fin 1), .num (.fin 1), .num (.fin 1)]
    else if p = "rate_P" then some [.num (.fin 0), .num (.fin 3), .num (.fin 3), .num (.fin (-3))]
    else some [.num (.fin 0), .num (.fin 0), .num (.fin 0), .num (.fin 0)], 4⟩

theorem rollStates_current (i : ℕ) (hi : i < 4) : ∃ cur s, rollStates.current i = .ok cur ∧
    cur.toFlow = some s ∧ s.beta = 0 := by
  obtain rfl | rfl | rfl | rfl : i = 0 ∨ i = 1 ∨ i = 2 ∨ i = 3 := by omega
  · exact ⟨_, ⟨20, 1, 5, 0, 0, 0, 0⟩, rfl, rfl, rfl⟩
  · exact ⟨_, ⟨0, 1, 5, 0, 3, 0, 0⟩, rfl, rfl, rfl⟩
  · exact ⟨_, ⟨20, 1, 5, 0, 3, 0, 0⟩, rfl, rfl, rfl⟩
  · exact ⟨_, ⟨20, 1, 5, 0, -3, 0, 0⟩, rfl, rfl, rfl⟩

theorem rollStates_run : ∃ out, standardRun exampleEnv onePanelAc rollStates = .ok out := by
  have hp : Panelled exampleEnv onePanelAc onePanelAc :=
    ⟨onePanelAc, plain_autopanels, plainAc_panelled⟩
  obtain ⟨ps, fs, h1, h2⟩ := Passes.build (env := exampleEnv) (ac := onePanelAc) (st := rollStates)
    (k := 4) (i := 0) (by
      intro j hj
      obtain ⟨cur, s, c1, c2, c3⟩ := rollStates_current j hj
      obtain ⟨l, v, hv⟩ := plain_analyse s c3
      have : Pass.Of exampleEnv onePanelAc rollStates (0 + j) ⟨cur, s, l, v⟩ :=
        ⟨by rw [Nat.zero_add]; exact c1, c2, hv⟩
      obtain ⟨gs, hg⟩ := saveAll_total (env := exampleEnv) exactDgesv_lapack this
      exact ⟨_, gs, this, hg⟩)
  exact standardRun_build hp h1 h2 (by simp [rollStates])

/-- Example for C123: lift in flight, rolling on the spot, and in both together. -/
example : ∃ out f1 f2 f3 f4, standardRun exampleEnv onePanelAc rollStates = .ok out ∧
    out.value "FL" 0 = some (.fin f1) ∧ out.value "FL" 1 = some (.fin f2) ∧
    out.value "FL" 2 = some (.fin f3) ∧ out.value "FL" 3 = some (.fin f4) ∧
    f3 + f4 = 2 * f1 + 2 * f2 := by
  obtain ⟨out, h⟩ := rollStates_run
  have e3 : motion 20 0 0 0 + motion 0 3 0 0 = motion 20 3 0 0 := by
    funext k
    fin_cases k <;> simp [motion]
  have e4 : motion 20 0 0 0 - motion 0 3 0 0 = motion 20 (-3) 0 0 := by
    funext k
    fin_cases k <;> simp [motion]
  obtain ⟨f1, f2, f3, f4, hf⟩ := C123_combined exampleEnv exactDgesv_lapack onePanelAc rollStates out
    h 5 0 1 (motion 20 0 0 0) (motion 0 3 0 0) 0 1 2 3 (by simp [rollStates]) (by simp [rollStates])
    (by simp [rollStates]) (by simp [rollStates]) ⟨rfl, rfl, rfl, rfl, rfl, rfl, rfl⟩
    ⟨rfl, rfl, rfl, rfl, rfl, rfl, rfl⟩ (by rw [e3]; exact ⟨rfl, rfl, rfl, rfl, rfl, rfl, rfl⟩)
    (by rw [e4]; exact ⟨rfl, rfl, rfl, rfl, rfl, rfl, rfl⟩) "FL" (by simp [loadNames])
  exact ⟨out, f1, f2, f3, f4, h, hf⟩

/-- Example for C123: circulations of the first two states of `rollStates` add up to those of the
third. -/
example : ∃ a b c : Analysis, a.Of exampleEnv onePanelAc rollStates 0 ∧
    b.Of exampleEnv onePanelAc rollStates 1 ∧ c.Of exampleEnv onePanelAc rollStates 2 ∧
    List.ofFn c.g = List.zipWith (· + ·) (List.ofFn a.g) (List.ofFn b.g) := by
  obtain ⟨-, ac', ⟨ac1, p1, p2⟩, h⟩ :=
    (C93_finishes_iff exampleEnv exactDgesv_lapack onePanelAc rollStates).1 rollStates_run
  have p1' : setAutopanels 5 5 onePanelAc = .ok ac1 := p1
  rw [plain_autopanels] at p1'
  cases p1'
  rw [plainAc_panelled] at p2
  cases p2
  obtain ⟨a, ha⟩ := h 0 (by simp [rollStates])
  obtain ⟨b, hb⟩ := h 1 (by simp [rollStates])
  obtain ⟨c, hc⟩ := h 2 (by simp [rollStates])
  obtain ⟨n, G, hG⟩ := C123_circulations exampleEnv onePanelAc 5 0
  refine ⟨a, b, c, ha, hb, hc, ?_⟩
  rw [hG rollStates 0 1 (motion 20 0 0 0) a ⟨rfl, rfl, rfl, rfl, rfl, rfl, rfl⟩ ha,
    hG rollStates 1 1 (motion 0 3 0 0) b ⟨rfl, rfl, rfl, rfl, rfl, rfl, rfl⟩ hb,
    hG rollStates 2 1 (motion 20 3 0 0) c ⟨rfl, rfl, rfl, rfl, rfl, rfl, rfl⟩ hc]
  apply List.ext_getElem
  · simp
  · intro k h1 h2
    simp [Fin.sum_univ_four, motion]

/-- Example for C123: the run over the states of `runStates` finishes at any airspeed, density and
rates. -/
example (v1 v2 d1 d2 p1 p2 q1 q2 r1 r2 : ℝ) : ∃ out, standardRun exampleEnv onePanelAc
    ⟨fun k => if k = "airspeed" then some [.num (.fin v1), .num (.fin v2)]
      else if k = "alpha" then some [.num (.fin 0), .num (.fin 5)]
      else if k = "beta" then some [.num (.fin 0), .num (.fin 0)]
      else if k = "density" then some [.num (.fin d1), .num (.fin d2)]
      else if k = "rate_P" then some [.num (.fin p1), .num (.fin p2)]
      else if k = "rate_Q" then some [.num (.fin q1), .num (.fin q2)]
      else some [.num (.fin r1), .num (.fin r2)], 2⟩ = .ok out := by
  refine (C123_finishes exampleEnv exactDgesv_lapack onePanelAc runStates _ (by rfl)
    (fun i => if i = 0 then 0 else 5) (fun _ => 0) (fun _ => 1) (fun i => if i = 0 then d1 else d2)
    (fun i => if i = 0 then motion 10 0 0 0 else motion 20 0 0 0)
    (fun i => if i = 0 then motion v1 p1 q1 r1 else motion v2 p2 q2 r2) ?_ ?_).1 example_run
  · intro i hi
    obtain rfl | rfl : i = 0 ∨ i = 1 := by simp only [runStates] at hi; omega
    · exact ⟨rfl, rfl, rfl, rfl, rfl, rfl, rfl⟩
    · exact ⟨rfl, rfl, rfl, rfl, rfl, rfl, rfl⟩
  · intro i hi
    obtain rfl | rfl : i = 0 ∨ i = 1 := by simp only [runStates] at hi; omega
    · exact ⟨rfl, rfl, rfl, rfl, rfl, rfl, rfl⟩
    · exact ⟨rfl, rfl, rfl, rfl, rfl, rfl, rfl⟩

end Verif
