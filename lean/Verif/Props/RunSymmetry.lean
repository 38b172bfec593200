import Verif.Props.RunFiles
import Verif.Props.NormalsExamples
import Verif.Props.Invariance

/-!
# Properties C82 and C83: solution of the system, and symmetric runs
-/

namespace Verif

open V3

/-! ## Specification -/

/-- Numbers of chordwise panels given by the user and by the settings are not negative. -/
def PAircraft.GivenNumC (autoC : ℤ) (ac : PAircraft ℝ) : Prop :=
  0 ≤ autoC ∧ ∀ w ∈ ac.wings, (∀ s ∈ w.segments, ∀ n, s.numC = some n → 0 ≤ n) ∧
    ∀ c ∈ w.controls, ∀ n, c.numC = some n → 0 ≤ n

/-- A symmetric aircraft (see C74), in terms of the panelled aircraft; wings with camber have parallel
chords unless normals are not turned. -/
def SymmetricAircraft (env : RunEnv) (ac' : PAircraft ℝ) : Prop :=
  ∀ t ∈ allSubareas ac', SymmetricInput env.lat t ∧ (env.doRot = true → ParallelChords env.lat t)

/-- Flight state `i` is symmetric. -/
def FlightSt.SymmetricAt (st : FlightSt ℝ) (i : ℕ) : Prop :=
  st.aero.entry "beta" i = .ok (.fin 0) ∧ st.aero.entry "rate_P" i = .ok (.fin 0) ∧
    st.aero.entry "rate_R" i = .ok (.fin 0)

/-- The circulations returned by a finished run satisfy the system of equations returned with them. -/
def SystemSatisfied : Prop :=
  ∀ (env : RunEnv), Lapack env.dgesv → 0 < env.eps →
    ∀ (ac : PAircraft ℝ) (st : FlightSt ℝ) (out : RunOut), standardRun env ac st = .ok out →
    ∀ (n : ℕ) (A : Matrix (Fin n) (Fin n) ℝ) (b g : Fin n → ℝ),
      out.vlm.matrix = some (List.ofFn fun i => List.ofFn fun j => A i j) →
      out.vlm.rhs = some (List.ofFn b) →
      out.vlm.panelwise "gamma" = some (List.ofFn fun k => .fin (g k)) → A.mulVec g = b

/-! ## C82 -/

theorem ofFn_inj_len {α : Type*} {m n : ℕ} {f : Fin m → α} {g : Fin n → α}
    (h : List.ofFn f = List.ofFn g) : ∃ e : n = m, ∀ i, f (Fin.cast e i) = g i := by
  have e : n = m := by
    have := congrArg List.length h
    simpa using this.symm
  subst e
  exact ⟨rfl, fun i => congrFun (List.ofFn_injective h) i⟩

/-- **C82** for regular systems: if the matrix returned by a finished run is regular, the returned
circulations satisfy the returned system — and then the flow is tangential at all collocation
points. -/
theorem C82_system_satisfied_partial (env : RunEnv) (hd : Lapack env.dgesv) (ac : PAircraft ℝ)
    (st : FlightSt ℝ) (out : RunOut) (h : standardRun env ac st = .ok out)
    (n : ℕ) (A : Matrix (Fin n) (Fin n) ℝ) (b g : Fin n → ℝ)
    (hA : out.vlm.matrix = some (List.ofFn fun i => List.ofFn fun j => A i j))
    (hb : out.vlm.rhs = some (List.ofFn b))
    (hg : out.vlm.panelwise "gamma" = some (List.ofFn fun k => .fin (g k)))
    (hreg : IsUnit A.det) :
    A.mulVec g = b ∧
    ∃ (s : FlowState) (P : Fin n → Panel),
      st.aero.entry "alpha" (st.num - 1) = .ok (.fin s.alpha) ∧
      (∀ k : Fin n, out.lattice.panel k = some (P k)) ∧
      ∀ i, (flowAt env.eps s env.refs P g (P i).col).dot (P i).n = 0 := by
  obtain ⟨ac', a, -, h2, h3, h4⟩ := C80_returned_data_is_last_state env hd ac st out h
  rw [h4.gamma] at hg
  obtain ⟨e, hg'⟩ := ofFn_inj_len (Option.some.inj hg)
  rw [h4.rhs] at hb
  obtain ⟨e2, hb'⟩ := ofFn_inj_len (Option.some.inj hb)
  rw [h4.matrix] at hA
  obtain ⟨e3, hA'⟩ := ofFn_inj_len (Option.some.inj hA)
  obtain ⟨s, l, P, A0, g0, R⟩ := a
  simp only at e
  subst e
  have eg : g0 = g := by
    funext i
    have := hg' i
    simp only [Fin.cast_eq_self, Flt.fin.injEq] at this
    exact this
  have eb : vlmBoundary s env.refs P = b := by
    funext i
    exact hb' i
  have eA : A0 = A := by
    funext i j
    have := hA' i
    obtain ⟨e4, q⟩ := ofFn_inj_len this
    exact q j
  subst eg eb eA
  have hsol := h2.solved hreg
  refine ⟨hsol, s, P, h2.alpha, ?_, ?_⟩
  · rw [h3]
    exact h2.panels
  · rw [← C25_flow_tangency env.eps s env.refs P A0 h2.matrix]
    exact hsol

/-! ## C83 -/

theorem autopanels_facts {autoC autoS : ℤ} {ac ac1 : PAircraft ℝ} (hu : ac.Unpanelled)
    (hn : ac.GivenNumC autoC) (h : setAutopanels autoC autoS ac = .ok ac1) :
    ac1.Unpanelled ∧ ac1.NumC 0 := by
  constructor
  · intro w' hw' s' hs'
    unfold setAutopanels at h
    cases hm : mapE (PWing.setAutopanels autoC autoS) ac.wings with
    | error e => rw [hm] at h; cases h
    | ok ws =>
      rw [hm] at h
      cases h
      obtain ⟨w, hw, hww⟩ := forall₂_mem_right (mapE_ok hm) hw'
      unfold PWing.setAutopanels at hww
      cases hq : mapE (PSegment.setAutopanels w.span autoC autoS) w.segments with
      | error e => rw [hq] at hww; cases hww
      | ok segs =>
        rw [hq] at hww
        cases hww
        obtain ⟨s, hs, hss⟩ := forall₂_mem_right (mapE_ok hq) hs'
        have hst : s'.strips = s.strips := by
          unfold PSegment.setAutopanels spanRatio at hss
          dsimp only at hss
          split_ifs at hss <;> simp only [Except.ok.injEq] at hss <;> subst hss <;> rfl
        rw [hst]
        exact hu w hw s hs
  · have h1 := C10_user_numbers_kept ac ac1 autoC autoS h
    intro w' hw'
    obtain ⟨w, hw, -, -, h2, h3⟩ := forall₂_mem_right h1 hw'
    constructor
    · intro s' hs'
      obtain ⟨s, hs, -, -, h4, -⟩ := forall₂_mem_right h2 hs'
      refine ⟨_, h4, ?_⟩
      cases hc : s.numC with
      | none => exact hn.1
      | some n => exact (hn.2 w hw).1 s hs n hc
    · intro c' hc'
      obtain ⟨c, hc, -, h4⟩ := forall₂_mem_right h3 hc'
      refine ⟨_, h4, ?_⟩
      cases hcc : c.numC with
      | none => exact hn.1
      | some n => exact (hn.2 w hw).2 c hc n hcc

theorem boundary_flip {n : ℕ} {s : FlowState} {c : Refs} {σ : Equiv.Perm (Fin n)}
    {P : Fin n → Panel} (h : SymmetricWith σ P) (hs : s.Symmetric) (hc : c.Symmetric) (i : Fin n) :
    vlmBoundary s c P (σ i) = (P i).sgn * vlmBoundary s c P i := by
  obtain ⟨e1, -, e3, -⟩ := h.facts i
  obtain ⟨s1, s2, s3⟩ := hs
  unfold vlmBoundary
  rw [e1, e3]
  unfold velWind velRot freestreamDir
  rw [s1, s2, s3]
  generalize (P i).col = x
  generalize (P i).n = m
  generalize (P i).sgn = k
  simp only [V3.dot, add_x, add_y, add_z, sub_x, sub_y, sub_z, smul_x, smul_y, smul_z, flipY_x,
    flipY_y, flipY_z, hc.1, deg2rad, zero_mul, Real.sin_zero, Real.cos_zero]
  ring

/-- Lattices without rotated normals are those of an aircraft without deflections and camber. -/
theorem unrotated_panels {env : LatticeEnv} {ac ac' : PAircraft ℝ} (hu : ac.Unpanelled)
    (h : prePanelling ac = .ok ac') (hn : ac.NumC 0) {alpha beta : ℝ} {l : LatticeData}
    (hl : genLattice env false alpha beta ac' = .ok l) :
    ∃ l', genLattice ⟨env.geo, fun _ _ => (none, none), fun _ _ _ _ => 0⟩ true alpha beta ac' =
        .ok l' ∧ l'.num = l.num ∧ ∀ k : ℕ, k < l.num → l'.panel k = l.panel k := by
  obtain ⟨cs, k1, k2, k3, k4, k5, -⟩ := genLattice_ok hl
  obtain ⟨g3, h0, ⟨gs, q1, q2⟩, hE, -⟩ := lattice_entry hu h hn hl
  have hcor : ∀ e, entryCorners ⟨env.geo, fun _ _ => (none, none), fun _ _ _ _ => 0⟩ ac' e =
      entryCorners env ac' e := by
    intro e
    unfold entryCorners entryParts
    cases ac'.wings[e.path.wing]? with
    | none => rfl
    | some w =>
      simp only
      cases w.segments[e.path.seg]? with
      | none => rfl
      | some s =>
        simp only
        cases s.strips[e.path.strip]? with
        | none => rfl
        | some d =>
          simp only
          cases d.subareas[e.path.sub]? <;> rfl
  set env' : LatticeEnv := ⟨env.geo, fun _ _ => (none, none), fun _ _ _ _ => 0⟩ with henv
  have hcor' : entryCorners env' ac' = entryCorners env ac' := funext hcor
  obtain ⟨l', hl'⟩ : ∃ l', genLattice env' true alpha beta ac' = .ok l' := by
    have hr : ∃ n, rotateAll env' ac' l.book.entries (fun k => (lastPanel (vlmLattice
        (trailLeg alpha beta) (l.book.inputsOf cs)) k).bind PanelPts.finNormal) = .ok n := by
      refine rotateAll_panelled hu h (env := env') ?_ _
      intro e he
      obtain ⟨t, ht, hp, -, v, hv, -⟩ := hE e he
      exact ⟨t, ht, hp, v, hv⟩
    obtain ⟨n, hn'⟩ := hr
    exact ⟨_, genLattice_build (cs := cs) k1 (by rw [hcor', k2]) k3 (by simpa using hn')⟩
  obtain ⟨cs', m1, m2, m3, m4, -, m6⟩ := genLattice_ok hl'
  rw [k1] at m1
  have hbook : l.book = l'.book := by injection m1
  rw [← hbook, hcor', k2] at m2
  have hcc : cs = cs' := by injection m2
  subst hcc
  have hpts : l'.pts = l.pts := by rw [m4, k4, hbook]
  refine ⟨l', hl', by unfold LatticeData.num; rw [hbook], ?_⟩
  intro k hk
  have hC := C71_own_rotations ac ac' hu h hn env' alpha beta l' hl'
  have hnum : (k : ℤ) < l.book.numP := by
    unfold LatticeData.num at hk
    omega
  obtain ⟨-, r2, r3, -⟩ := g3.ranges h0
  have hmem : (k : ℤ) ∈ pyRange 0 l.book.numP := mem_pyRange.2 ⟨by omega, hnum⟩
  rw [← r2, List.mem_flatMap] at hmem
  obtain ⟨e, he, hk'⟩ := hmem
  rw [mem_pyRange] at hk'
  rw [← hbook] at hC
  obtain ⟨t, ht, -, v, -, hv⟩ := hC e he
  have hst := r3 e he
  obtain ⟨p1, n1, t1, t2⟩ := hv (k - e.start).toNat (by omega)
  have hi : e.start + ((k - e.start).toNat : ℤ) = k := by omega
  rw [hi] at p1 t2
  have e1 : n1 = (panelPts (Coef.of v) (trailLeg alpha beta) 1 e.numC
      (k - e.start).toNat 0).finNormal := by
    rcases t1 with ⟨-, h⟩ | ⟨f, -, axis, -, h⟩
    · exact h
    · exact turnedBy_zero h (by cases e.mirror <;> simp [henv])
  have e2 := turnedBy_zero t2 (by simp [henv])
  rw [e1] at e2
  unfold LatticeData.panel LatticeData.panelAt
  rw [k5 rfl, e2, ← hpts]
  simp only [p1, Option.bind_some]

theorem symmetric_lattice {env : LatticeEnv} {doRot : Bool} {ac ac' : PAircraft ℝ}
    (hu : ac.Unpanelled) (h : prePanelling ac = .ok ac') (hn : ac.NumC 0) {alpha : ℝ}
    (hs : ∀ t ∈ allSubareas ac', SymmetricInput env t ∧ (doRot = true → ParallelChords env t))
    {l : LatticeData} (hl : genLattice env doRot alpha 0 ac' = .ok l) {P : Fin l.num → Panel}
    (hP : ∀ k : Fin l.num, l.panel k = some (P k)) : ∃ σ, SymmetricWith σ P := by
  cases doRot with
  | true =>
    exact C74_symmetric_lattice_partial ac ac' hu h hn env alpha (fun t ht => (hs t ht).1)
      (fun t ht => (hs t ht).2 rfl) l hl P hP
  | false =>
    obtain ⟨l', hl', hnum, hpan⟩ := unrotated_panels hu h hn hl
    have := C74_symmetric_lattice_partial ac ac' hu h hn _ alpha (by
      intro t ht
      rcases (hs t ht).1 with ⟨q1, q2, q3, -⟩ | ⟨q1, q2, -, -⟩
      · exact .inl ⟨q1, q2, q3, fun _ _ => rfl⟩
      · exact .inr ⟨q1, q2, fun _ _ => by simp, fun _ _ => rfl⟩) (fun t ht => .inl fun _ _ => rfl)
      l' hl'
    generalize hm : l'.num = m at this hnum
    subst hnum
    exact this P fun k => by rw [hpan k k.2]; exact hP k

/-- **C83**: for every finished run of a symmetric aircraft and every flight state without sideslip,
roll and yaw rate, the values of side force, rolling and yawing moment and of the corresponding
coefficients recorded for that state are zero — whether or not the system was regular. Missing: twisted cambered wings, see C74. -/
theorem C83_symmetric_run_partial (env : RunEnv) (hd : Lapack env.dgesv) (ac : PAircraft ℝ)
    (hu : ac.Unpanelled) (hn : ac.GivenNumC env.autoC)
    (hs : ∀ ac', Panelled env ac ac' → SymmetricAircraft env ac') (hc : env.refs.Symmetric)
    (st : FlightSt ℝ) (out : RunOut) (h : standardRun env ac st = .ok out)
    (i : ℕ) (hi : i < st.num) (hst : st.SymmetricAt i) :
    (∀ k ∈ ["Fy", "FC", "Mx", "Mz"], ∃ l, out.table k = some l ∧ l[i]? = some (.fin 0)) ∧
    (env.refs.NonZero → ∀ k ∈ ["Cy", "CC", "Cl", "Cn"],
      ∃ l, out.table k = some l ∧ l[i]? = some (.fin 0)) := by
  obtain ⟨ac', as, ⟨ac1, a1, a2⟩, ⟨h2, h3⟩, -, h4, -⟩ := C59_one_row_per_state env hd ac st out h
  obtain ⟨u1, u2⟩ := autopanels_facts hu hn a1
  have hsym := hs ac' ⟨ac1, a1, a2⟩
  rw [← h2] at hi
  have ha : as[i]? = some as[i] := List.getElem?_eq_getElem hi
  have hof := h3 i _ ha
  generalize as[i] = a at ha hof
  have hflow : a.s.Symmetric := by
    obtain ⟨z1, z2, z3⟩ := hst
    have w1 := hof.beta
    have w2 := hof.rateP
    have w3 := hof.rateR
    rw [z1] at w1
    rw [z2] at w2
    rw [z3] at w3
    simp only [Except.ok.injEq, Flt.fin.injEq] at w1 w2 w3
    exact ⟨w1.symm, w2.symm, w3.symm⟩
  obtain ⟨s, l, P, A, g, R⟩ := a
  have hl := hof.lattice
  rw [hflow.1] at hl
  obtain ⟨σ, hσ⟩ := symmetric_lattice u1 a2 u2 hsym hl (P := P) hof.panels
  have key : R.ftot.y = 0 ∧ R.mtot.x = 0 ∧ R.mtot.z = 0 ∧ R.wind.y = 0 ∧
      (env.refs.NonZero → R.coeffs.cy = some 0 ∧ R.coeffs.cC = some 0 ∧ R.coeffs.cl = some 0 ∧
        R.coeffs.cn = some 0) := by
    by_cases hreg : IsUnit A.det
    · obtain ⟨-, -, -, r⟩ := C39_no_lateral_loads env.eps s env.refs σ P hσ hflow hc A hof.matrix
        hreg g (hof.solved hreg) R hof.results
      exact r
    · obtain ⟨-, -, -, r⟩ := symmetric_loads env.eps s env.refs σ P hσ hflow hc g (by
        funext j
        have : g = vlmBoundary s env.refs P := hof.singular hreg
        rw [this, boundary_flip hσ hflow hc, ← mul_assoc, sgn_mul_self, one_mul]) R hof.results
      exact r
  obtain ⟨f1, f2, f3, f4, f5⟩ := key
  have get : ∀ c ∈ runColumns, ∀ x, c.2 ⟨s, l, P, A, g, R⟩ = x →
      ∃ l, out.table c.1 = some l ∧ l[i]? = some x := by
    intro c hc x hx
    refine ⟨_, h4 c hc, ?_⟩
    rw [List.getElem?_map, ha, Option.map_some, hx]
  refine ⟨?_, ?_⟩
  · intro k hk
    simp only [List.mem_cons, List.not_mem_nil, or_false] at hk
    rcases hk with rfl | rfl | rfl | rfl
    · exact get ("Fy", fun a => .fin a.R.ftot.y) (by simp [runColumns]) _ (by simp only [f1])
    · exact get ("FC", fun a => .fin a.R.wind.y) (by simp [runColumns]) _ (by simp only [f4])
    · exact get ("Mx", fun a => .fin a.R.mtot.x) (by simp [runColumns]) _ (by simp only [f2])
    · exact get ("Mz", fun a => .fin a.R.mtot.z) (by simp [runColumns]) _ (by simp only [f3])
  · intro hz k hk
    obtain ⟨g1, g2, g3, g4⟩ := f5 hz
    simp only [List.mem_cons, List.not_mem_nil, or_false] at hk
    rcases hk with rfl | rfl | rfl | rfl
    · exact get ("Cy", fun a => asFlt a.R.coeffs.cy) (by simp [runColumns]) _ (by simp only [g1]; rfl)
    · exact get ("CC", fun a => asFlt a.R.coeffs.cC) (by simp [runColumns]) _ (by simp only [g2]; rfl)
    · exact get ("Cl", fun a => asFlt a.R.coeffs.cl) (by simp [runColumns]) _ (by simp only [g3]; rfl)
    · exact get ("Cn", fun a => asFlt a.R.coeffs.cn) (by simp [runColumns]) _ (by simp only [g4]; rfl)

end Verif
