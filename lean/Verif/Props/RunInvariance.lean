import Verif.Props.RunFinish

/-!
# Properties C94 and C95: corresponding runs

Scaled flight states (C94) and another moment reference point (C95).
-/

set_option linter.unnecessarySeqFocus false

namespace Verif

open V3

/-! ## C94: scaled flight states -/

/-- Entry `p` of flight state `i`, if finite, is multiplied by `k` in the second collection. -/
def EntryTimes (k : ℝ) (st st' : FlightSt ℝ) (p : String) (i : ℕ) : Prop :=
  ∀ x, st.aero.entry p i = .ok (.fin x) → st'.aero.entry p i = .ok (.fin (k * x))

/-- Flight state `i` of the second collection has `m` times the density and `k` times the airspeed and
the rates of that of the first. -/
def ScaledAt (m k : ℝ) (st st' : FlightSt ℝ) (i : ℕ) : Prop :=
  EntryTimes 1 st st' "alpha" i ∧ EntryTimes 1 st st' "beta" i ∧ EntryTimes m st st' "density" i ∧
  ∀ p ∈ ["airspeed", "rate_P", "rate_Q", "rate_R"], EntryTimes k st st' p i

/-- Names of forces and moments among the columns. -/
def loadNames : List String := ["Fx", "Fy", "Fz", "FD", "FC", "FL", "Mx", "My", "Mz"]

/-- Names of coefficients among the columns. -/
def coeffNames : List String := ["Cx", "Cy", "Cz", "CD", "CC", "CL", "Cl", "Cm", "Cn"]

theorem boundary_faster {n : ℕ} (s : FlowState) (c : Refs) (P : Fin n → Panel) (k : ℝ) :
    vlmBoundary (s.faster k) c P = fun i => k * vlmBoundary s c P i := by
  funext i
  unfold vlmBoundary velWind velRot FlowState.faster
  generalize freestreamDir _ _ = u
  vsimp
  ring

/-- Results for scaled flow and circulation. -/
theorem results_scaled {n : ℕ} (eps : ℝ) (s : FlowState) (c : Refs) (P : Fin n → Panel) {m k : ℝ}
    (hm : m ≠ 0) (hk : k ≠ 0) {gamma : Fin n → ℝ} {R : Results n}
    (h : vlmResults eps s c P gamma = some R) :
    ∃ R', vlmResults eps { s.faster k with rho := m * s.rho } c P (fun i => k * gamma i) = some R' ∧
      R'.ftot = (m * k ^ 2) • R.ftot ∧ R'.mtot = (m * k ^ 2) • R.mtot ∧
      R'.wind = (m * k ^ 2) • R.wind ∧
      (s.airspeed ≠ 0 → s.rho ≠ 0 → R'.coeffs = R.coeffs) := by
  obtain ⟨hok, rfl⟩ := vlmResults_some h
  have hf : ∀ i, panelForce eps { s.faster k with rho := m * s.rho } c P (fun i => k * gamma i) i =
      (m * k ^ 2) • panelForce eps s c P gamma i := by
    intro i
    have hv : panelVel eps { s.faster k with rho := m * s.rho } c P (fun i => k * gamma i) i =
        k • panelVel eps s c P gamma i := by
      have : panelVel eps { s.faster k with rho := m * s.rho } c P (fun i => k * gamma i) i =
        panelVel eps (s.faster k) c P (fun i => k * gamma i) i := rfl
      rw [this, panelVel_eq, panelVel_eq, flowAt_faster]
    rw [panelForce_eq, panelForce_eq, hv]
    generalize panelVel eps s c P gamma i = v
    show ((m * s.rho) * (k * gamma i)) • _ = _
    ext <;> vsimp <;> ring
  have hmo : ∀ i, panelMoment eps { s.faster k with rho := m * s.rho } c P (fun i => k * gamma i) i =
      (m * k ^ 2) • panelMoment eps s c P gamma i := by
    intro i
    unfold panelMoment
    rw [hf]
    generalize panelForce eps s c P gamma i = v
    ext <;> vsimp <;> ring
  have hF : ∑ i, panelForce eps { s.faster k with rho := m * s.rho } c P (fun i => k * gamma i) i =
      (m * k ^ 2) • ∑ i, panelForce eps s c P gamma i := by
    rw [smul_sum']
    exact Finset.sum_congr rfl fun i _ => hf i
  have hM : ∑ i, panelMoment eps { s.faster k with rho := m * s.rho } c P (fun i => k * gamma i) i =
      (m * k ^ 2) • ∑ i, panelMoment eps s c P gamma i := by
    rw [smul_sum']
    exact Finset.sum_congr rfl fun i _ => hmo i
  have hW : ∀ f : V3 ℝ, bodyToWind { s.faster k with rho := m * s.rho } ((m * k ^ 2) • f) =
      (m * k ^ 2) • bodyToWind s f := by
    intro f
    unfold bodyToWind FlowState.faster
    ext <;> vsimp <;> ring
  have hq : dynPressure { s.faster k with rho := m * s.rho } = (m * k ^ 2) * dynPressure s := by
    unfold dynPressure FlowState.faster
    ring
  refine ⟨_, vlmResults_mk hok _ c _, hF, hM, ?_, ?_⟩
  · simp only [sumResults]
    rw [hF, hW]
  · intro hv hr
    have hk2 : m * k ^ 2 ≠ 0 := by positivity
    have hq0 : dynPressure s ≠ 0 := by
      unfold dynPressure
      positivity
    have hq1 : m * k ^ 2 * dynPressure s ≠ 0 := mul_ne_zero hk2 hq0
    have hc : ∀ x y : ℝ, cdiv (m * k ^ 2 * x) (m * k ^ 2 * y) = cdiv x y := by
      intro x y
      unfold cdiv
      rw [mul_div_mul_left _ _ hk2]
      simp [hk, hm]
    simp only [sumResults]
    rw [hF, hM]
    unfold vlmCoeffs
    simp only [hW, hq, if_neg hq0, if_neg hq1, smul_x, smul_y, smul_z]
    simp only [mul_assoc] at hc ⊢
    simp only [hc]

/-- The analysis of the scaled flight state. -/
theorem Analysis.Of.scaled {env : RunEnv} {ac : PAircraft ℝ} {st st' : FlightSt ℝ} {i : ℕ}
    {m k : ℝ} (hm : m ≠ 0) (hk : k ≠ 0) (hs : ScaledAt m k st st' i) {a : Analysis}
    (h : a.Of env ac st i) :
    ∃ a' : Analysis, a'.Of env ac st' i ∧ a'.R.ftot = (m * k ^ 2) • a.R.ftot ∧
      a'.R.mtot = (m * k ^ 2) • a.R.mtot ∧ a'.R.wind = (m * k ^ 2) • a.R.wind ∧
      (a.s.airspeed ≠ 0 → a.s.rho ≠ 0 → a'.R.coeffs = a.R.coeffs) := by
  obtain ⟨s, l, P, A, g, R⟩ := a
  obtain ⟨h1, h2, h3, h4⟩ := hs
  obtain ⟨R', r1, r2⟩ := results_scaled env.eps s env.refs P hm hk h.results
  have hb : vlmBoundary { s.faster k with rho := m * s.rho } env.refs P =
      fun i => k * vlmBoundary s env.refs P i := boundary_faster s env.refs P k
  refine ⟨⟨{ s.faster k with rho := m * s.rho }, l, P, A, fun i => k * g i, R'⟩,
    ⟨h4 _ (by simp) _ h.airspeed, h3 _ h.density, ?_, ?_, h4 _ (by simp) _ h.rateP,
      h4 _ (by simp) _ h.rateQ, h4 _ (by simp) _ h.rateR, h.lattice, h.nonempty, h.panels,
      h.matrix, ?_, ?_, r1⟩, r2⟩
  · have := h1 _ h.alpha
    rw [one_mul] at this
    exact this
  · have := h2 _ h.beta
    rw [one_mul] at this
    exact this
  · intro hu
    have := h.solved hu
    unfold Solves at this ⊢
    rw [hb]
    show A.mulVec (k • g) = _
    rw [Matrix.mulVec_smul, this]
    rfl
  · intro hu
    have : g = vlmBoundary s env.refs P := h.singular hu
    show (fun i => k * g i) = vlmBoundary _ _ _
    rw [hb, this]

/-- **C94**: if in all flight states the density is multiplied by a factor and airspeed and rates by
another one, a run that finished finishes again, all forces and moments are multiplied by the first
factor and the square of the second one, and the coefficients are the same wherever airspeed and
density are not zero — also if the system of equations is singular. -/
theorem C94_scaled_states (env : RunEnv) (hd : Lapack env.dgesv) (ac : PAircraft ℝ)
    (st st' : FlightSt ℝ) (hn : st'.num = st.num) (m k : ℕ → ℝ)
    (hpos : ∀ i < st.num, m i ≠ 0 ∧ k i ≠ 0) (hs : ∀ i < st.num, ScaledAt (m i) (k i) st st' i)
    (out : RunOut) (h : standardRun env ac st = .ok out) :
    ∃ out', standardRun env ac st' = .ok out' ∧ ∀ i < st.num,
      (∀ c ∈ loadNames, ∃ x, out.value c i = some (.fin x) ∧
        out'.value c i = some (.fin (m i * k i ^ 2 * x))) ∧
      ((∃ v r, v ≠ 0 ∧ r ≠ 0 ∧ st.aero.entry "airspeed" i = .ok (.fin v) ∧
          st.aero.entry "density" i = .ok (.fin r)) →
        ∀ c ∈ coeffNames, out'.value c i = out.value c i) := by
  obtain ⟨out', h', hv⟩ := run_transfer hd hd (ac2 := ac) (st' := st') hn
    (fun i a a' => a'.R.ftot = (m i * k i ^ 2) • a.R.ftot ∧
      a'.R.mtot = (m i * k i ^ 2) • a.R.mtot ∧ a'.R.wind = (m i * k i ^ 2) • a.R.wind ∧
      (a.s.airspeed ≠ 0 → a.s.rho ≠ 0 → a'.R.coeffs = a.R.coeffs))
    (fun ac' hac => ⟨ac', hac, fun i hi a ha =>
      ha.scaled (hpos i hi).1 (hpos i hi).2 (hs i hi)⟩) h
  refine ⟨out', h', ?_⟩
  intro i hi
  obtain ⟨ac', a, a', -, ha, ⟨r1, r2, r3, r4⟩, v1, v2⟩ := hv i hi
  constructor
  · intro c hc
    have key : ∀ (d : String × (Analysis → Flt ℝ)) x, d ∈ runColumns → d.2 a = .fin x →
        d.2 a' = .fin (m i * k i ^ 2 * x) → ∃ x, out.value d.1 i = some (.fin x) ∧
          out'.value d.1 i = some (.fin (m i * k i ^ 2 * x)) := by
      intro d x hd h1 h2
      exact ⟨x, by rw [v1 d hd, h1], by rw [v2 d hd, h2]⟩
    simp only [loadNames, List.mem_cons, List.not_mem_nil, or_false] at hc
    rcases hc with rfl | rfl | rfl | rfl | rfl | rfl | rfl | rfl | rfl
    · exact key ("Fx", fun a => .fin a.R.ftot.x) _ (by simp [runColumns]) rfl (by simp only [r1]; rfl)
    · exact key ("Fy", fun a => .fin a.R.ftot.y) _ (by simp [runColumns]) rfl (by simp only [r1]; rfl)
    · exact key ("Fz", fun a => .fin a.R.ftot.z) _ (by simp [runColumns]) rfl (by simp only [r1]; rfl)
    · exact key ("FD", fun a => .fin a.R.wind.x) _ (by simp [runColumns]) rfl (by simp only [r3]; rfl)
    · exact key ("FC", fun a => .fin a.R.wind.y) _ (by simp [runColumns]) rfl (by simp only [r3]; rfl)
    · exact key ("FL", fun a => .fin a.R.wind.z) _ (by simp [runColumns]) rfl (by simp only [r3]; rfl)
    · exact key ("Mx", fun a => .fin a.R.mtot.x) _ (by simp [runColumns]) rfl (by simp only [r2]; rfl)
    · exact key ("My", fun a => .fin a.R.mtot.y) _ (by simp [runColumns]) rfl (by simp only [r2]; rfl)
    · exact key ("Mz", fun a => .fin a.R.mtot.z) _ (by simp [runColumns]) rfl (by simp only [r2]; rfl)
  · rintro ⟨v, r, hv0, hr0, e1, e2⟩ c hc
    have w1 := e1.symm.trans ha.airspeed
    have w2 := e2.symm.trans ha.density
    simp only [Except.ok.injEq, Flt.fin.injEq] at w1 w2
    have hco := r4 (by rwa [← w1]) (by rwa [← w2])
    have key : ∀ d : String × (Analysis → Flt ℝ), d ∈ runColumns → d.2 a' = d.2 a →
        out'.value d.1 i = out.value d.1 i := by
      intro d hd h1
      rw [v1 d hd, v2 d hd, h1]
    simp only [coeffNames, List.mem_cons, List.not_mem_nil, or_false] at hc
    rcases hc with rfl | rfl | rfl | rfl | rfl | rfl | rfl | rfl | rfl
    · exact key ("Cx", fun a => asFlt a.R.coeffs.cx) (by simp [runColumns]) (by simp only [hco])
    · exact key ("Cy", fun a => asFlt a.R.coeffs.cy) (by simp [runColumns]) (by simp only [hco])
    · exact key ("Cz", fun a => asFlt a.R.coeffs.cz) (by simp [runColumns]) (by simp only [hco])
    · exact key ("CD", fun a => asFlt a.R.coeffs.cD) (by simp [runColumns]) (by simp only [hco])
    · exact key ("CC", fun a => asFlt a.R.coeffs.cC) (by simp [runColumns]) (by simp only [hco])
    · exact key ("CL", fun a => asFlt a.R.coeffs.cL) (by simp [runColumns]) (by simp only [hco])
    · exact key ("Cl", fun a => asFlt a.R.coeffs.cl) (by simp [runColumns]) (by simp only [hco])
    · exact key ("Cm", fun a => asFlt a.R.coeffs.cm) (by simp [runColumns]) (by simp only [hco])
    · exact key ("Cn", fun a => asFlt a.R.coeffs.cn) (by simp [runColumns]) (by simp only [hco])

/-- The states of `runStates` at twice the airspeed and three times the density. -/
noncomputable def runStatesScaled : FlightSt ℝ :=
  ⟨fun p => if p = "airspeed" then some [.num (.fin 20), .num (.fin 40)]
    else if p = "alpha" then some [.num (.fin 0), .num (.fin 5)]
    else if p = "density" then some [.num (.fin 3), .num (.fin 3)]
    else some [.num (.fin 0), .num (.fin 0)], 2⟩

theorem runStates_scaled (i : ℕ) (hi : i < 2) : ScaledAt 3 2 runStates runStatesScaled i := by
  have key : ∀ (k : ℝ) (p : String) (x y : ℝ), runStates.aero.entry p i = .ok (.fin x) →
      runStatesScaled.aero.entry p i = .ok (.fin y) → y = k * x →
      EntryTimes k runStates runStatesScaled p i := by
    intro k p x y h1 h2 h3 z hz
    rw [h1] at hz
    cases hz
    rw [h2, h3]
  obtain rfl | rfl : i = 0 ∨ i = 1 := by omega
  · refine ⟨key _ _ 0 0 rfl rfl (by norm_num), key _ _ 0 0 rfl rfl (by norm_num),
      key _ _ 1 3 rfl rfl (by norm_num), ?_⟩
    intro p hp
    simp only [List.mem_cons, List.not_mem_nil, or_false] at hp
    rcases hp with rfl | rfl | rfl | rfl
    exacts [key _ _ 10 20 rfl rfl (by norm_num), key _ _ 0 0 rfl rfl (by norm_num),
      key _ _ 0 0 rfl rfl (by norm_num), key _ _ 0 0 rfl rfl (by norm_num)]
  · refine ⟨key _ _ 5 5 rfl rfl (by norm_num), key _ _ 0 0 rfl rfl (by norm_num),
      key _ _ 1 3 rfl rfl (by norm_num), ?_⟩
    intro p hp
    simp only [List.mem_cons, List.not_mem_nil, or_false] at hp
    rcases hp with rfl | rfl | rfl | rfl
    exacts [key _ _ 20 40 rfl rfl (by norm_num), key _ _ 0 0 rfl rfl (by norm_num),
      key _ _ 0 0 rfl rfl (by norm_num), key _ _ 0 0 rfl rfl (by norm_num)]

/-- Example for C94: twelve times the lift, the same lift coefficient. -/
example : ∃ out out' x, standardRun exampleEnv onePanelAc runStates = .ok out ∧
    standardRun exampleEnv onePanelAc runStatesScaled = .ok out' ∧
    out.value "FL" 1 = some (.fin x) ∧ out'.value "FL" 1 = some (.fin (3 * 2 ^ 2 * x)) ∧
    out'.value "CL" 1 = out.value "CL" 1 := by
  obtain ⟨out, h⟩ := example_run
  obtain ⟨out', h', hv⟩ := C94_scaled_states exampleEnv exactDgesv_lapack onePanelAc
    runStates runStatesScaled rfl (fun _ => 3) (fun _ => 2) (fun _ _ => by norm_num) (fun i hi => runStates_scaled i hi) out h
  obtain ⟨v1, v2⟩ := hv 1 (by simp [runStates])
  obtain ⟨x, x1, x2⟩ := v1 "FL" (by simp [loadNames])
  exact ⟨out, out', x, h, h', x1, x2, v2 ⟨20, 1, by norm_num, by norm_num, rfl, rfl⟩ "CL"
    (by simp [coeffNames])⟩

/-! ## C95: another moment reference point -/

/-- Results for another moment reference point. -/
theorem results_rp {n : ℕ} (eps : ℝ) (s : FlowState) (c : Refs) (P : Fin n → Panel) (rp : V3 ℝ)
    {gamma : Fin n → ℝ} {R : Results n} (h : vlmResults eps s c P gamma = some R) :
    ∃ R', vlmResults eps s { c with rp := rp } P gamma = some R' ∧ R'.ftot = R.ftot ∧
      R'.wind = R.wind ∧ R'.mtot = R.mtot + (c.rp - rp).cross R.ftot ∧
      R'.coeffs.cx = R.coeffs.cx ∧ R'.coeffs.cy = R.coeffs.cy ∧ R'.coeffs.cz = R.coeffs.cz ∧
      R'.coeffs.cD = R.coeffs.cD ∧ R'.coeffs.cC = R.coeffs.cC ∧ R'.coeffs.cL = R.coeffs.cL := by
  obtain ⟨hok, rfl⟩ := vlmResults_some h
  refine ⟨_, vlmResults_mk hok _ _ _, rfl, rfl, ?_, rfl, rfl, rfl, rfl, rfl, rfl⟩
  simp only [sumResults]
  have hx : (c.rp - rp).cross (∑ i, panelForce eps s c P gamma i) =
      ∑ i, (c.rp - rp).cross (panelForce eps s c P gamma i) := by
    induction (Finset.univ : Finset (Fin n)) using Finset.induction_on with
    | empty =>
      rw [Finset.sum_empty, Finset.sum_empty]
      ext <;> simp
    | insert a S ha ih =>
      rw [Finset.sum_insert ha, Finset.sum_insert ha, ← ih]
      generalize (∑ i ∈ S, panelForce eps s c P gamma i) = u
      generalize panelForce eps s c P gamma a = v
      ext <;> vsimp <;> ring
  rw [hx, ← Finset.sum_add_distrib]
  refine Finset.sum_congr rfl fun i _ => ?_
  unfold panelMoment
  have : panelForce eps s { c with rp := rp } P gamma i = panelForce eps s c P gamma i := rfl
  rw [this]
  generalize panelForce eps s c P gamma i = v
  ext <;> vsimp <;> ring

/-- **C95**: with another moment reference point the run finishes just as well, all forces and force
coefficients are the same, and the moment is changed by the moment of the resulting force. -/
theorem C95_moment_transfer (env : RunEnv) (hd : Lapack env.dgesv) (ac : PAircraft ℝ)
    (st : FlightSt ℝ) (rp : V3 ℝ) (out : RunOut) (h : standardRun env ac st = .ok out) :
    ∃ out', standardRun { env with refs := { env.refs with rp := rp } } ac st = .ok out' ∧
      ∀ i < st.num,
        (∀ c ∈ ["Fx", "Fy", "Fz", "FD", "FC", "FL", "Cx", "Cy", "Cz", "CD", "CC", "CL"],
          out'.value c i = out.value c i) ∧
        ∃ f m : V3 ℝ, out.value "Fx" i = some (.fin f.x) ∧ out.value "Fy" i = some (.fin f.y) ∧
          out.value "Fz" i = some (.fin f.z) ∧ out.value "Mx" i = some (.fin m.x) ∧
          out.value "My" i = some (.fin m.y) ∧ out.value "Mz" i = some (.fin m.z) ∧
          out'.value "Mx" i = some (.fin (m.x +
            ((env.refs.rp.y - rp.y) * f.z - (env.refs.rp.z - rp.z) * f.y))) ∧
          out'.value "My" i = some (.fin (m.y +
            ((env.refs.rp.z - rp.z) * f.x - (env.refs.rp.x - rp.x) * f.z))) ∧
          out'.value "Mz" i = some (.fin (m.z +
            ((env.refs.rp.x - rp.x) * f.y - (env.refs.rp.y - rp.y) * f.x))) := by
  set env' : RunEnv := { env with refs := { env.refs with rp := rp } } with henv
  obtain ⟨out', h', hv⟩ := run_transfer (env := env) (env' := env') hd hd (ac2 := ac) (st' := st) rfl
    (fun i a a' => a'.R.ftot = a.R.ftot ∧ a'.R.wind = a.R.wind ∧
      a'.R.mtot = a.R.mtot + (env.refs.rp - rp).cross a.R.ftot ∧
      a'.R.coeffs.cx = a.R.coeffs.cx ∧ a'.R.coeffs.cy = a.R.coeffs.cy ∧
      a'.R.coeffs.cz = a.R.coeffs.cz ∧ a'.R.coeffs.cD = a.R.coeffs.cD ∧
      a'.R.coeffs.cC = a.R.coeffs.cC ∧ a'.R.coeffs.cL = a.R.coeffs.cL)
    (by
      intro ac' hac
      refine ⟨ac', hac, ?_⟩
      rintro i - ⟨s, l, P, A, g, R⟩ ha
      obtain ⟨R', r1, r2⟩ := results_rp env.eps s env.refs P rp ha.results
      exact ⟨⟨s, l, P, A, g, R'⟩, ⟨ha.airspeed, ha.density, ha.alpha, ha.beta, ha.rateP, ha.rateQ,
        ha.rateR, ha.lattice, ha.nonempty, ha.panels, ha.matrix, ha.solved, ha.singular, r1⟩, r2⟩) h
  refine ⟨out', h', ?_⟩
  intro i hi
  obtain ⟨ac', a, a', -, -, ⟨r1, r2, r3, c1, c2, c3, c4, c5, c6⟩, v1, v2⟩ := hv i hi
  have get1 : ∀ (d : String × (Analysis → Flt ℝ)) (x : Flt ℝ), d ∈ runColumns → d.2 a = x →
      out.value d.1 i = some x := by
    intro d x hd h1
    rw [v1 d hd, h1]
  have get2 : ∀ (d : String × (Analysis → Flt ℝ)) (x : Flt ℝ), d ∈ runColumns → d.2 a' = x →
      out'.value d.1 i = some x := by
    intro d x hd h1
    rw [v2 d hd, h1]
  constructor
  · intro c hc
    have key : ∀ d : String × (Analysis → Flt ℝ), d ∈ runColumns → d.2 a' = d.2 a →
        out'.value d.1 i = out.value d.1 i := by
      intro d hd h1
      rw [v1 d hd, v2 d hd, h1]
    simp only [List.mem_cons, List.not_mem_nil, or_false] at hc
    rcases hc with rfl | rfl | rfl | rfl | rfl | rfl | rfl | rfl | rfl | rfl | rfl | rfl
    · exact key ("Fx", fun a => .fin a.R.ftot.x) (by simp [runColumns]) (by simp only [r1])
    · exact key ("Fy", fun a => .fin a.R.ftot.y) (by simp [runColumns]) (by simp only [r1])
    · exact key ("Fz", fun a => .fin a.R.ftot.z) (by simp [runColumns]) (by simp only [r1])
    · exact key ("FD", fun a => .fin a.R.wind.x) (by simp [runColumns]) (by simp only [r2])
    · exact key ("FC", fun a => .fin a.R.wind.y) (by simp [runColumns]) (by simp only [r2])
    · exact key ("FL", fun a => .fin a.R.wind.z) (by simp [runColumns]) (by simp only [r2])
    · exact key ("Cx", fun a => asFlt a.R.coeffs.cx) (by simp [runColumns]) (by simp only [c1])
    · exact key ("Cy", fun a => asFlt a.R.coeffs.cy) (by simp [runColumns]) (by simp only [c2])
    · exact key ("Cz", fun a => asFlt a.R.coeffs.cz) (by simp [runColumns]) (by simp only [c3])
    · exact key ("CD", fun a => asFlt a.R.coeffs.cD) (by simp [runColumns]) (by simp only [c4])
    · exact key ("CC", fun a => asFlt a.R.coeffs.cC) (by simp [runColumns]) (by simp only [c5])
    · exact key ("CL", fun a => asFlt a.R.coeffs.cL) (by simp [runColumns]) (by simp only [c6])
  · exact ⟨a.R.ftot, a.R.mtot,
      get1 ("Fx", fun a => .fin a.R.ftot.x) _ (by simp [runColumns]) rfl,
      get1 ("Fy", fun a => .fin a.R.ftot.y) _ (by simp [runColumns]) rfl,
      get1 ("Fz", fun a => .fin a.R.ftot.z) _ (by simp [runColumns]) rfl,
      get1 ("Mx", fun a => .fin a.R.mtot.x) _ (by simp [runColumns]) rfl,
      get1 ("My", fun a => .fin a.R.mtot.y) _ (by simp [runColumns]) rfl,
      get1 ("Mz", fun a => .fin a.R.mtot.z) _ (by simp [runColumns]) rfl,
      get2 ("Mx", fun a => .fin a.R.mtot.x) _ (by simp [runColumns]) (by simp [r3]),
      get2 ("My", fun a => .fin a.R.mtot.y) _ (by simp [runColumns]) (by simp [r3]),
      get2 ("Mz", fun a => .fin a.R.mtot.z) _ (by simp [runColumns]) (by simp [r3])⟩

/-- Example for C95: with the reference point one metre behind the old one, the pitching moment
changes by the vertical force. -/
example : ∃ out out' f m, standardRun exampleEnv onePanelAc runStates = .ok out ∧
    standardRun { exampleEnv with refs := { exampleEnv.refs with rp := ⟨1, 0, 0⟩ } } onePanelAc
      runStates = .ok out' ∧
    out.value "Fz" 1 = some (.fin f) ∧ out.value "My" 1 = some (.fin m) ∧
    out'.value "My" 1 = some (.fin (m + f)) := by
  obtain ⟨out, h⟩ := example_run
  obtain ⟨out', h', hv⟩ := C95_moment_transfer exampleEnv exactDgesv_lapack _ _ ⟨1, 0, 0⟩ out h
  obtain ⟨-, f, m, -, -, z1, -, z2, -, -, z3, -⟩ := hv 1 (by simp [runStates])
  refine ⟨out, out', f.z, m.y, h, h', z1, z2, ?_⟩
  rw [z3]
  congr 3
  simp [exampleEnv]

end Verif
